import Verif.Spec.Explanation
import Verif.Props.ExplainTable

/-!
C106: the lines of which the explanation of every group consists (`/repo/examples/explain.cpp`).
-/

set_option linter.unusedSectionVars false

namespace Metaf.Props

open Metaf Metaf.Spec Metaf.Explain

variable [FloatIeee]

/-! ### Lemmas -/

theorem unlines_cons (a : Str) (ls : List Str) : unlines (a :: ls) = a ++ ls.flatMap (fun l => c!"\n" ++ l) := by
  induction ls generalizing a with
  | nil => simp [unlines]
  | cons l ls ih => rw [unlines, ih] <;> simp

theorem unlines_append (a : Str) (ls ms : List Str) :
    unlines ((a :: ls) ++ ms) = a ++ (ls ++ ms).flatMap (fun l => c!"\n" ++ l) := unlines_cons a (ls ++ ms)

theorem flatMap_if (c : Prop) [Decidable c] (l : Str) (f : Str → Str) :
    (lineIf c l).flatMap f = if c then f l else [] := by
  unfold lineIf; split <;> simp

theorem flatMap_for {α : Type} (v : Option α) (l : α → Str) (f : Str → Str) :
    (lineFor v l).flatMap f = partFor v (fun a => f (l a)) := by
  cases v <;> simp [lineFor, partFor]

theorem shown_text (s : Str) : shown (text s) = s := rfl

theorem shown_opt (b : Bool) (r : Res Str) : shown (opt b r) = if b then shown r else [] := by
  cases b <;> rfl

theorem shown_onSome {α : Type} (v : Option α) (f : α → Res Str) :
    shown (onSome v f) = partFor v (fun a => shown (f a)) := by
  cases v <;> rfl

theorem shown_value {α : Type} (v : Option α) (f : α → Res Str) :
    shown (value v f) = partFor v (fun a => shown (f a)) := by
  cases v <;> rfl

theorem shown_listed (d : Nat → Option (List Direction)) (f : List Direction → Res Str) :
    shown (listed d f) = partFor (d 64) (fun a => shown (f a)) := by
  unfold listed
  cases d 64 <;> rfl

theorem shown_distance (d : Distance) : shown (explainDistance d) = distanceShown d := rfl

/-- The pieces of a text that can be made. -/
theorem cat_shown {rs : List (Res Str)} {t : Str} (h : cat rs = .ok t) : t = (rs.map shown).flatten := by
  induction rs generalizing t with
  | nil => simpa [cat_none] using h
  | cons r rs ih =>
    obtain ⟨a, u, rfl, hu, rfl⟩ := cat_more.mp h
    rw [List.map_cons, List.flatten_cons, ← ih hu]
    rfl

theorem shown_cat_text (a : Str) (rs : List (Res Str)) (h : ∃ t, cat rs = .ok t) :
    shown (cat (text a :: rs)) = a ++ shown (cat rs) := by
  obtain ⟨t, ht⟩ := h
  rw [cat_cons, ht]
  rfl

theorem cat_join (a b : Str) (rs : List (Res Str)) : cat (text a :: text b :: rs) = cat (text (a ++ b) :: rs) := by
  simp only [cat_cons, text]
  cases cat rs with
  | error e => rfl
  | ok t => simp

theorem cat_one (a : Str) : cat [text a] = text a := by simp [cat, text, bind, Except.bind]

theorem opt_text (b : Bool) (s : Str) : opt b (text s) = text (if b then s else []) := by
  cases b <;> rfl

theorem onSome_text {α : Type} (v : Option α) (f : α → Str) : onSome v (fun a => text (f a)) = text (partFor v f) := by
  cases v <;> rfl

theorem partFor_some {α : Type} (a : α) (f : α → Str) : partFor (some a) f = f a := rfl
theorem partFor_none {α : Type} (f : α → Str) : partFor none f = [] := rfl

/-- Puts pieces together that can always be made, and shows those of a text. -/
local macro "pieces" h:ident "[" ts:Lean.Parser.Tactic.simpLemma,* "]" : tactic =>
  `(tactic| (
    try simp only [cat_join, cat_one, opt_text, onSome_text, $ts,*] at $h:ident
    first
      | replace $h:ident := cat_shown $h:ident
      | (have $h:ident := Except.ok.inj $h:ident; replace $h:ident := Eq.symm $h:ident)
    try simp only [List.map_cons, List.map_nil, List.flatten_cons, List.flatten_nil, shown_text, shown_opt, shown_onSome,
      shown_value, shown_listed, shown_distance, List.append_nil] at $h:ident
    rw [$h:ident]))

/-- Puts lines together. -/
local macro "joined" "[" ts:Lean.Parser.Tactic.simpLemma,* "]" : tactic =>
  `(tactic| (
    simp only [unlines_cons, unlines_append, bne_iff_ne, ne_eq, not_true_eq_false, not_false_eq_true, flatMap_if, flatMap_for, List.flatMap_append, List.flatMap_nil, List.flatMap_cons,
      List.append_nil, List.nil_append, List.append_assoc, List.mem_cons, reduceCtorEq, List.not_mem_nil, or_false,
      or_true, false_or, true_or, and_false, and_true, false_and, true_and, ↓reduceIte, partFor_some, partFor_none, $ts,*]
    try rfl))

theorem trend_lines {g : TrendGroup} {t : Str} (h : trendText g = .ok t) : t = unlines (trendLines g) := by
  obtain ⟨ty, prob, b, tFrom, tTill, tAt⟩ := g
  cases ty <;> unfold trendText at h <;>
    pieces h [trendTimes, trendProbability] <;>
    joined [trendLines, trendTitle, timedTrends] 

/-- The lines of wind shear: there is no line break in front of the speed. -/
def shearLines (g : WindGroup) : List Str :=
  [windTitle g, c!"Wind direction: " ++ explainDirection g.windDir true ++ c!"Wind speed: " ++ explainSpeed g.wSpeed] ++
  lineIf g.gSpeed.isReported (c!"Gust speed: " ++ explainSpeed g.gSpeed)

theorem wind_lines {g : WindGroup} {t : Str} (h : windGroupText g = .ok t) :
    t = unlines (if g.windType = .WIND_SHEAR then shearLines g else windLines g) := by
  obtain ⟨ty, windDir, wSpeed, gSpeed, wShHeight, vsecBegin, vsecEnd, rw, evTime, inc⟩ := g
  cases ty <;> unfold windGroupText at h <;>
    pieces h [windText, sectorText, shiftText] <;>
    joined [windLines, shearLines, windTitle, blowing]

/-- A text in front of a text. -/
theorem cat_inner (rs qs : List (Res Str)) : cat (cat rs :: qs) = cat (rs ++ qs) := by
  induction rs with
  | nil =>
    rw [cat_cons]
    change _ = cat qs
    cases cat qs <;> simp [cat]
  | cons r rs ih =>
    rw [List.cons_append, cat_cons r, cat_cons, cat_cons, ← ih, cat_cons]
    cases r with
    | error e => rfl
    | ok a =>
      cases cat rs with
      | error e => rfl
      | ok b => cases cat qs <;> simp

theorem cat_inner1 (a : Res Str) (rs qs : List (Res Str)) : cat (a :: cat rs :: qs) = cat (a :: (rs ++ qs)) := by
  rw [cat_cons, cat_inner, ← cat_cons]

theorem cat_inner2 (a b : Res Str) (rs qs : List (Res Str)) :
    cat (a :: b :: cat rs :: qs) = cat (a :: b :: (rs ++ qs)) := by
  rw [cat_cons, cat_inner1, ← cat_cons]

theorem visibility_lines {g : VisibilityGroup} {t : Str} (h : visibilityText g = .ok t) :
    t = unlines (visibilityLines g) := by
  obtain ⟨ty, vis, visMax, rvrTrend, dir, rw, dirSecFrom, dirSecTo, inc⟩ := g
  cases ty
  case RVR =>
    unfold visibilityText at h
    cases rw with
    | none => 
      simp only [Option.isNone_none, if_true] at h
      pieces h []
      joined [visibilityLines]
    | some r =>
      simp only [Option.isNone_some, Bool.false_eq_true, if_false] at h
      pieces h [Explain.rvrTrendText]
      joined [visibilityLines, visibilityTitle, visibilityAmount]
  case VARIABLE_PREVAILING | VARIABLE_DIRECTIONAL | VARIABLE_RUNWAY | VARIABLE_RVR | VARIABLE_SECTOR =>
    unfold visibilityText at h
    dsimp only at h
    pieces h [Explain.rvrTrendText, visibilitySector, visibilityRange, cat_inner1, cat_inner2, List.cons_append, List.nil_append]
    joined [visibilityLines, visibilityTitle, visibilityAmount, sectorShown]
  all_goals
    unfold visibilityText at h
    pieces h [visibilitySector, cat_inner1, cat_inner2, List.cons_append, List.nil_append]
    joined [visibilityLines, visibilityTitle, visibilityAmount, sectorShown]

theorem far_ok {d : Distance} {label t : Str} (h : opt d.isReported (cat [text label, explainDistance d]) = .ok t) :
    t = if d.isReported then label ++ distanceShown d else [] := by
  cases hr : d.isReported <;> rw [hr] at h <;> simp only [opt] at h
  · pieces h []
    simp
  · pieces h []
    simp

theorem cloudType_line {c : CloudType} {t : Str} (h : explainCloudType c = .ok t) : t = cloudShown c := by
  unfold explainCloudType at h
  simp only [cat_join] at h
  obtain ⟨u, hu, rfl⟩ := cat_text.mp h
  obtain ⟨a, b, ha, hb, rfl⟩ := cat_more.mp hu
  rw [far_ok ha, cat_none.mp hb]
  simp [cloudShown]

theorem place_ok (g : CloudGroup) : ceilingPlace g = text (placeShown g) := by
  unfold ceilingPlace placeShown
  simp only [cat_join, cat_one, onSome_text]

theorem cloud_lines {g : CloudGroup} {t : Str} (h : cloudText g = .ok t) : t = unlines (cloudLines g) := by
  obtain ⟨ty, amnt, ht, maxHt, conv, rw, dir, cldTp, inc⟩ := g
  cases ty
  case OBSCURATION =>
    unfold cloudText at h
    obtain ⟨a, u, ha, hu, rfl⟩ := cat_more.mp h
    obtain ⟨b, v, hb, hv, rfl⟩ := cat_more.mp hu
    cases cat_none.mp hv
    have hb' : b = partFor (CloudGroup.cloudType ⟨.OBSCURATION, amnt, ht, maxHt, conv, rw, dir, cldTp, inc⟩) cloudShown := by
      cases hc : CloudGroup.cloudType ⟨.OBSCURATION, amnt, ht, maxHt, conv, rw, dir, cldTp, inc⟩ with
      | none => rw [hc] at hb; cases hb; rfl
      | some c => rw [hc] at hb; exact cloudType_line hb
    subst hb'
    unfold cloudLines
    dsimp only
    cases hd : (CloudGroup.height ⟨.OBSCURATION, amnt, ht, maxHt, conv, rw, dir, cldTp, inc⟩).distance with
    | none => rw [hd] at ha; cases ha; simp [lineFor, unlines]
    | some x =>
      rw [hd] at ha
      by_cases hx : x = 0
      · simp only [onSome, hx, if_true] at ha
        cases ha
        simp [lineFor, unlines, hx]
      · simp only [onSome, hx, if_false] at ha
        cases ha
        simp [lineFor, unlines, hx]
  all_goals
    unfold cloudText at h
    pieces h [place_ok]
    joined [cloudLines]

theorem cat_map_text {α : Type} (l : List α) (f : α → Str) : cat (l.map (fun a => text (f a))) = text (l.flatMap f) := by
  induction l with
  | nil => rfl
  | cons a l ih => rw [List.map_cons, cat_cons, ih]; rfl

theorem weather_lines {g : WeatherGroup} {t : Str} (h : Explain.weatherText g = .ok t) : t = unlines (weatherLines g) := by
  obtain ⟨ty, w, inc⟩ := g
  cases ty <;> unfold Explain.weatherText at h <;>
    pieces h [phenomenaText, cat_map_text] <;>
    joined [weatherLines, weatherTitle, WeatherGroup.weatherPhenomena, List.flatMap_map]

theorem temperature_lines {g : TemperatureGroup} {t : Str} (h : temperatureText g = .ok t) :
    t = unlines (temperatureLines g) := by
  obtain ⟨ty, x, dp, inc⟩ := g
  cases ty <;> unfold temperatureText at h
  · cases hr : TemperatureGroup.relativeHumidity ⟨.TEMPERATURE_AND_DEW_POINT, x, dp, inc⟩ with
    | none =>
      rw [hr] at h
      pieces h [onSome]
      joined [temperatureLines, hr]
    | some r =>
      rw [hr] at h
      pieces h [onSome, cat_inner1, List.cons_append, List.nil_append]
      joined [temperatureLines, hr, List.cons_append, List.nil_append]
  · pieces h []
    joined [temperatureLines]
  · pieces h []
    joined [temperatureLines]

theorem pressure_lines (g : PressureGroup) : pressureText g = unlines (pressureLines g) := by
  obtain ⟨ty, p, inc⟩ := g
  cases ty <;> unfold pressureText <;> joined [pressureLines]

theorem runwayState_lines (g : RunwayStateGroup) :
    c!"State of " ++ explainRunway g.rw ++ c!":\n" ++ runwayStateText g = unlines (runwayStateLines g) := by
  obtain ⟨rw, ty, dp, ext, dDepth, sf⟩ := g
  cases ty
  case RUNWAY_STATE => by_cases hd : dp = .CLEAR_AND_DRY <;> unfold runwayStateText <;> joined [runwayStateLines, hd]
  all_goals unfold runwayStateText; joined [runwayStateLines]

theorem extreme_ok {x : Temperature} {time : Option MetafTime} {label t : Str}
    (h : opt x.isReported (cat [text label, text (explainTemperature x), text c!", expected at ",
      value time (fun t => text (explainMetafTime t))]) = .ok t) :
    t = if x.isReported then label ++ (explainTemperature x ++ (c!", expected at " ++ partFor time explainMetafTime)) else [] := by
  cases hr : x.isReported <;> rw [hr] at h <;> simp only [opt] at h
  · cases h; rfl
  · pieces h []
    simp

theorem minMax_lines {g : MinMaxTemperatureGroup} {t : Str} (h : minMaxText g = .ok t) :
    t = unlines (minMaxLines g) := by
  obtain ⟨ty, minTemp, maxTemp, minTime, maxTime, inc⟩ := g
  cases ty <;> unfold minMaxText at h
  case FORECAST =>
    obtain ⟨u, hu, rfl⟩ := cat_text.mp h
    obtain ⟨a, v, ha, hv, rfl⟩ := cat_more.mp hu
    obtain ⟨b, w, hb, hw, rfl⟩ := cat_more.mp hv
    cases cat_none.mp hw
    rw [extreme_ok ha, extreme_ok hb]
    joined [minMaxLines]
  all_goals
    pieces h [observedText]
    joined [minMaxLines]

theorem precipitation_lines (g : PrecipitationGroup) : precipitationText g = unlines (precipitationLines g) := by
  obtain ⟨ty, a, b, inc⟩ := g
  cases ty <;> unfold precipitationText <;> joined [precipitationLines, amountLabel, recentLabel, precipitationNote]

theorem tendency_lines (g : PressureTendencyGroup) : pressureTendencyText g = unlines (tendencyLines g) := by
  obtain ⟨ty, a⟩ := g
  cases ty <;> unfold pressureTendencyText <;> joined [tendencyLines]

theorem misc_lines {g : MiscGroup} {t : Str} (h : miscText g = .ok t) : t = unlines (miscLines g) := by
  obtain ⟨ty, a, inc⟩ := g
  cases ty
  case SUNSHINE_DURATION_MINUTES =>
    cases a with
    | none => cases h
    | some d =>
      unfold miscText at h
      simp only [value] at h
      by_cases hd : d = 0
      · simp only [hd, ne_eq, not_true_eq_false, if_false] at h
        cases h
        subst hd
        rfl
      · simp only [hd, ne_eq, not_false_eq_true, if_true, cat_join, cat_one] at h
        cases h
        have hd' : some d ≠ some 0 := fun e => hd (Option.some.inj e)
        unfold miscLines miscDataLines
        dsimp only
        rw [if_neg hd']
        rfl
  case DENSITY_ALTITUDE =>
    cases a with
    | none => cases h; rfl
    | some d =>
      unfold miscText at h
      simp only [cat_join, cat_one] at h
      cases h
      rfl
  case CORRECTED_WEATHER_OBSERVATION =>
    cases a with
    | none => cases h
    | some d =>
      unfold miscText at h
      rw [cat_shown h]
      simp only [List.map_cons, List.map_nil, List.flatten_cons, List.flatten_nil, List.append_nil]
      rfl
  case HAILSTONE_SIZE =>
    cases a with
    | none => cases h
    | some d =>
      unfold miscText at h
      rw [cat_shown h]
      simp only [List.map_cons, List.map_nil, List.flatten_cons, List.flatten_nil, List.append_nil]
      rfl
  case ISSUER_ID_FN =>
    cases a with
    | none => cases h
    | some d =>
      unfold miscText at h
      rw [cat_shown h]
      simp only [List.map_cons, List.map_nil, List.flatten_cons, List.flatten_nil, List.append_nil]
      change _ = (c!"Report issuer identifier is " ++ shown (showAsInt d)) ++ c!"\nThis forecast is issued at The Fleet Weather Center Norfolk, VA."
      rw [List.append_assoc]
      rfl
  case ISSUER_ID_FS =>
    cases a with
    | none => cases h
    | some d =>
      unfold miscText at h
      rw [cat_shown h]
      simp only [List.map_cons, List.map_nil, List.flatten_cons, List.flatten_nil, List.append_nil]
      change _ = (c!"Report issuer identifier is " ++ shown (showAsInt d)) ++ c!"\nThis forecast is issued at The Fleet Weather Center San Diego, CA (FS)."
      rw [List.append_assoc]
      rfl
  all_goals (cases h; rfl)

theorem layerForecast_lines {g : LayerForecastGroup} {t : Str} (h : cat [
    text (layerForecastGroupTypeToString g.layerType), text c!" at ",
    if !g.layerBaseHeight.isReported && !g.layerTopHeight.isReported then text c!"all heights"
    else cat [text c!"heights from ", explainDistance g.layerBaseHeight, text c!" to ",
      explainDistance g.layerTopHeight]] = .ok t) :
    t = unlines (layerForecastLines g) := by
  obtain ⟨ty, a, b⟩ := g
  obtain ⟨v, hv, rfl⟩ := cat_text.mp h
  obtain ⟨w, hw, rfl⟩ := cat_text.mp hv
  obtain ⟨x, y, hx, hy, rfl⟩ := cat_more.mp hw
  cases cat_none.mp hy
  have e : x = if a.isReported ∨ b.isReported then
      c!"heights from " ++ (distanceShown a ++ (c!" to " ++ distanceShown b)) else c!"all heights" := by
    cases h1 : a.isReported <;> cases h2 : b.isReported <;> dsimp only at hx <;> rw [h1, h2] at hx
    · cases hx; rfl
    all_goals
      simp only [Bool.not_false, Bool.not_true, Bool.and_true, Bool.and_false, Bool.false_eq_true, if_false] at hx
      pieces hx []
      simp only [Bool.false_eq_true, or_true, if_true, or_false]
  rw [e]
  joined [layerForecastLines]

theorem cloudTypes_lines {l : List CloudType} {t : Str}
    (h : cat (l.map (fun ct => cat [text c!"\n", explainCloudType ct])) = .ok t) : t = l.flatMap (fun c => c!"\n" ++ cloudShown c) := by
  induction l generalizing t with
  | nil => exact cat_none.mp h
  | cons c l ih =>
    obtain ⟨a, u, ha, hu, rfl⟩ := cat_more.mp h
    obtain ⟨b, hb, rfl⟩ := cat_text.mp ha
    obtain ⟨d, e, hd, he, rfl⟩ := cat_more.mp hb
    cases cat_none.mp he
    rw [ih hu, cloudType_line hd]
    simp

theorem directions_ok {d : Nat → Option (List Direction)} {label t : Str}
    (h : listed d (fun l => opt (!l.isEmpty) (cat [text label, text (explainDirectionSector l)])) = .ok t) :
    t = if d 64 ≠ some [] then label ++ sectorShown (d 64) else [] := by
  unfold listed at h
  cases hd : d 64 with
  | none => rw [hd] at h; cases h
  | some l =>
    rw [hd] at h
    cases l with
    | nil => cases h; rfl
    | cons a l =>
      simp only [List.isEmpty_cons, Bool.not_false, opt, if_true, cat_join, cat_one] at h
      cases h
      simp [sectorShown, partFor]

theorem lightning_lines {g : LightningGroup} {t : Str}
    (h : cat [text c!"Lightning strikes observed",
    opt g.dist.isReported (cat [text c!" at distance ", explainDistance g.dist]),
    text (frequencyText g.freq), text (lightningTypes g),
    listed g.directions (fun l => opt (!l.isEmpty)
      (cat [text c!"\nLightning strikes observed in the following directions: ",
        text (explainDirectionSector l)]))] = .ok t) : t = unlines (lightningLines g) := by
  obtain ⟨u1, h1, rfl⟩ := cat_text.mp h
  obtain ⟨a, u2, ha, h2, rfl⟩ := cat_more.mp h1
  obtain ⟨u3, h3, rfl⟩ := cat_text.mp h2
  obtain ⟨u4, h4, rfl⟩ := cat_text.mp h3
  obtain ⟨b, u5, hb, h5, rfl⟩ := cat_more.mp h4
  cases cat_none.mp h5
  rw [far_ok ha, directions_ok hb]
  have e : frequencyText g.freq = (frequencyLines g.freq).flatMap (fun l => c!"\n" ++ l) := by
    cases g.freq <;> rfl
  have e' : lightningTypes g = (lineIf (lightningTypeLines g ≠ []) c!"The following lightning types are observed: " ++
      lightningTypeLines g ++
      lineIf g.typeUnknown c!"Some lightning strike types specified in this group were not recognised by parser").flatMap
        (fun l => c!"\n" ++ l) := by
    unfold lightningTypes lightningTypeLines
    cases g.typeCloudGround <;> cases g.typeInCloud <;> cases g.typeCloudCloud <;> cases g.typeCloudAir <;>
      cases g.typeUnknown <;> rfl
  rw [e, e']
  unfold lightningLines
  simp only [List.append_assoc]
  rw [List.singleton_append, unlines_cons]
  simp only [List.flatMap_append, flatMap_if, List.append_assoc, List.append_nil, farShown]
  rfl

theorem vicinity_lines {g : VicinityGroup} {t : Str}
    (h : cat [text (vicinityText g.t), text c!" observed",
    opt g.dist.isReported (cat [text c!" at distance ", explainDistance g.dist]),
    listed g.directions (fun l => opt (!l.isEmpty)
      (cat [text c!"\nObserved in the following directions: ", text (explainDirectionSector l)])),
    opt g.movDir.isReported
      (cat [text c!"\nMoving towards ", text (cardinalDirectionToString g.movDir.cardinal)])] = .ok t) :
    t = unlines (vicinityLines g) := by
  obtain ⟨u1, h1, rfl⟩ := cat_text.mp h
  obtain ⟨u2, h2, rfl⟩ := cat_text.mp h1
  obtain ⟨a, u3, ha, h3, rfl⟩ := cat_more.mp h2
  obtain ⟨b, u4, hb, h4, rfl⟩ := cat_more.mp h3
  simp only [cat_join, cat_one, opt_text] at h4
  cases h4
  rw [far_ok ha, directions_ok hb]
  joined [vicinityLines, farShown]

theorem cloudTypes_ok {g : CloudTypesGroup} {t : Str} (h : cat [text c!"Obscuration / cloud layers: ",
    cat (g.cldTp.map (fun ct => cat [text c!"\n", explainCloudType ct]))] = .ok t) :
    t = unlines (cloudTypesLines g) := by
  obtain ⟨u, hu, rfl⟩ := cat_text.mp h
  obtain ⟨a, v, ha, hv, rfl⟩ := cat_more.mp hu
  cases cat_none.mp hv
  rw [cloudTypes_lines ha]
  unfold cloudTypesLines CloudTypesGroup.cloudTypes
  rw [unlines_cons, List.flatMap_map, List.append_nil]

/-! ### C106 -/

/-- The line in front of the explanation of a group whose data is not valid. -/
def warningLine : Str := c!"Data in this group may be errorneous, incomplete or inconsistent"

theorem fin_lines {b : Bool} {rs : List (Res Str)} {e : Str} {ls : List Str} (h : cat (notice b :: rs) = .ok e)
    (hl : ls ≠ []) (hr : ∀ t, cat rs = .ok t → t = unlines ls) :
    e = unlines (lineIf ((Except.ok b : Res Bool) = .ok false) warningLine ++ ls) := by
  obtain ⟨a, t, ha, ht, rfl⟩ := cat_more.mp h
  rw [hr t ht]
  cases b
  · cases ha
    cases ls with
    | nil => exact absurd rfl hl
    | cons l ls =>
      rw [lineIf, if_pos rfl, List.singleton_append, unlines_cons, unlines_cons, List.flatMap_cons]
      simp only [List.append_assoc]
      rfl
  · cases ha
    rfl

theorem only {r : Res Str} {t : Str} {ls : List Str} (hr : ∀ t, r = .ok t → t = unlines ls) (h : cat [r] = .ok t) :
    t = unlines ls := by
  obtain ⟨a, u, ha, hu, rfl⟩ := cat_more.mp h
  cases cat_none.mp hu
  rw [List.append_nil]
  exact hr a ha

theorem misc_nonempty (g : MiscGroup) : miscLines g ≠ [] := by
  obtain ⟨ty, a, inc⟩ := g
  cases ty <;> exact List.cons_ne_nil _ _

theorem lines_nonempty (g : Group) (s : Str) : groupLines g s ≠ [] := by
  cases g
  case misc g => exact misc_nonempty g
  case visibility g =>
    change visibilityLines g ≠ []
    unfold visibilityLines
    split <;> exact List.cons_ne_nil _ _
  case cloud g =>
    obtain ⟨t⟩ := g
    cases t
    case OBSCURATION => exact List.append_ne_nil_of_right_ne_nil _ (List.cons_ne_nil _ _)
    all_goals exact List.cons_ne_nil _ _
  case temperature g => obtain ⟨t⟩ := g; cases t <;> exact List.cons_ne_nil _ _
  case pressure g => obtain ⟨t⟩ := g; cases t <;> exact List.cons_ne_nil _ _
  case minMaxTemperature g => obtain ⟨t⟩ := g; cases t <;> exact List.cons_ne_nil _ _
  case precipitation g => obtain ⟨t⟩ := g; cases t <;> exact List.cons_ne_nil _ _
  case pressureTendency g => obtain ⟨t⟩ := g; cases t <;> exact List.cons_ne_nil _ _
  all_goals exact List.cons_ne_nil _ _

/-- C106. The explanation of every group other than of a wind shear layer consists of the lines of the specification, in
their order, after the warning if the group is not valid. -/
theorem C106_lines_partial {g : Group} {p : ReportPart} {s e : Str} (h : visitor.visit g p s = .ok e)
    (hs : ∀ w, g = .wind w → w.windType ≠ .WIND_SHEAR) :
    e = unlines (lineIf (groupValid g = .ok false) warningLine ++ groupLines g s) := by
  have hn := lines_nonempty g s
  cases g with
  | keyword g => exact fin_lines h hn fun t ht => by rw [cat_one] at ht; cases ht; rfl
  | location g => exact fin_lines h hn fun t ht => by rw [cat_join, cat_one] at ht; cases ht; rfl
  | reportTime g => exact fin_lines h hn fun t ht => by rw [cat_join, cat_one] at ht; cases ht; rfl
  | trend g => exact fin_lines h hn fun t ht => only (fun _ => trend_lines) ht
  | wind g => exact fin_lines h hn fun t ht => only (fun _ h => by rw [wind_lines h, if_neg (hs g rfl)]; rfl) ht
  | visibility g => exact fin_lines h hn fun t ht => only (fun _ => visibility_lines) ht
  | cloud g => exact fin_lines h hn fun t ht => only (fun _ => cloud_lines) ht
  | weather g =>
    have h : visitWeatherGroup g = .ok e := h
    unfold visitWeatherGroup at h
    change e = unlines (lineIf (g.isValid = .ok false) warningLine ++ _)
    cases hv : g.isValid with
    | error f => rw [hv] at h; cases h
    | ok b =>
      rw [hv] at h
      exact fin_lines h hn fun t ht => only (fun _ => weather_lines) ht
  | temperature g => exact fin_lines h hn fun t ht => only (fun _ => temperature_lines) ht
  | pressure g => exact fin_lines h hn fun t ht => by rw [cat_one] at ht; cases ht; exact pressure_lines g
  | runwayState g =>
    refine fin_lines h hn fun t ht => ?_
    simp only [cat_join, cat_one] at ht
    cases ht
    exact runwayState_lines g
  | seaSurface g => exact fin_lines h hn fun t ht => by simp only [cat_join, cat_one] at ht; cases ht; rfl
  | minMaxTemperature g => exact fin_lines h hn fun t ht => only (fun _ => minMax_lines) ht
  | precipitation g => exact fin_lines h hn fun t ht => by rw [cat_one] at ht; cases ht; exact precipitation_lines g
  | layerForecast g => exact fin_lines h hn fun t ht => layerForecast_lines ht
  | pressureTendency g => exact fin_lines h hn fun t ht => by rw [cat_one] at ht; cases ht; exact tendency_lines g
  | cloudTypes g => exact fin_lines h hn fun t ht => cloudTypes_ok ht
  | lowMidHighCloud g =>
    refine fin_lines h hn fun t ht => ?_
    simp only [cat_join, cat_one] at ht
    cases ht
    joined [groupLines, lowMidHighLines]
  | lightning g => exact fin_lines h hn fun t ht => lightning_lines ht
  | vicinity g => exact fin_lines h hn fun t ht => vicinity_lines ht
  | misc g => exact fin_lines h hn fun t ht => only (fun _ => misc_lines) ht
  | unknown g => exact fin_lines h hn fun t ht => by rw [cat_join, cat_one] at ht; cases ht; rfl

/-- The lines of the explanation of a group of a report. -/
def explanationLines (x : GroupInfo) : List Str :=
  lineIf (groupValid x.group = .ok false) warningLine ++ groupLines x.group x.rawString

/-- Wind shear at some height. -/
def Shear (g : Group) : Prop := ∃ w, g = .wind w ∧ w.windType = .WIND_SHEAR

/-- C106. What is written on wind shear: the text of the speed continues the line of the direction. -/
theorem C106_shear {g : WindGroup} {p : ReportPart} {s e : Str} (h : visitor.visit (.wind g) p s = .ok e)
    (hs : g.windType = .WIND_SHEAR) :
    e = unlines (lineIf (groupValid (.wind g) = .ok false) warningLine ++
      ([c!"Wind shear at height " ++ distanceShown g.wShHeight ++ c!":",
        c!"Wind direction: " ++ explainDirection g.windDir true ++ c!"Wind speed: " ++ explainSpeed g.wSpeed] ++
       lineIf g.gSpeed.isReported (c!"Gust speed: " ++ explainSpeed g.gSpeed))) := by
  refine fin_lines h (List.cons_ne_nil _ _) fun t ht => only (fun _ h => ?_) ht
  rw [wind_lines h, if_pos hs, shearLines, windTitle, hs]

/-- C106. The page: the row of each group which is not a wind shear layer shows the lines of the specification. -/
theorem C106_page_partial {memory input out : Str} (h : explain memory input = .ok out) :
    ∃ r es, Result input 200 r ∧ es.length = r.groups.length ∧
      (∀ x e, (x, e) ∈ r.groups.zip es → ¬ Shear x.group → e = unlines (explanationLines x)) ∧
      out = page (reportTypeToString r.reportMetadata.type)
        (if r.reportMetadata.error = .NONE then none else some (reportErrorToString r.reportMetadata.error))
        ((r.groups.map (·.rawString)).zip es) := by
  obtain ⟨r, es, hr, hf, ho⟩ := C99_page h
  refine ⟨r, es, hr, hf.length_eq.symm, fun x e hx hs => ?_, ho⟩
  have hv : visitor.visit x.group x.reportPart x.rawString = .ok e := by
    clear ho hr
    generalize r.groups = gs at hf hx
    induction hf with
    | nil => cases hx
    | cons h1 _ ih =>
      rcases List.mem_cons.mp hx with e | hx
      · cases e; exact h1
      · exact ih hx
  exact C106_lines_partial hv fun w hw ht => hs ⟨w, hw, ht⟩

/-- C106. In a cell of the page, lines are separated by `<br>`. -/
theorem C106_cell (a : Str) (ls : List Str) :
    lines (unlines (a :: ls)) = lines a ++ ls.flatMap (fun l => c!"<br>" ++ lines l) := by
  rw [unlines_cons]
  unfold lines
  rw [List.flatMap_append, List.flatMap_assoc]
  rfl

end Metaf.Props

/-! ### Cases -/

namespace Metaf.Props

open Metaf Metaf.Spec Metaf.Explain

attribute [local instance] ieee

/-- The group of wind shear in the report below. -/
def shearExample : GroupInfo :=
  ⟨.wind { windType := .WIND_SHEAR, windDir := ⟨240, .VALUE_DEGREES⟩, wSpeed := ⟨some 45, .KNOTS⟩,
           wShHeight := Distance.ofUnit 2000 .FEET }, .TAF, c!"WS020/24045KT"⟩

set_option maxRecDepth 4000 in
/-- C106 does not hold for wind shear: the text of the speed follows that of the direction without a line break. -/
theorem C106_violated :
    (∃ r, Result c!"TAF ZZZZ 041115Z 0412/0512 24005G15KT WS020/24045KT" 200 r ∧ shearExample ∈ r.groups) ∧
    ∃ e, visitor.visit shearExample.group shearExample.reportPart shearExample.rawString = .ok e ∧
      e ≠ unlines (explanationLines shearExample) := by
  let e := c!"Wind shear at height 2000 feet (609 meters / 3/8 statute miles):\n\
             Wind direction: 240 degrees(southwest)Wind speed: 45 knots (23.1 m/s / 83.3 km/h / 51.7 mph)"
  refine ⟨?_, e, by kernel_rfl, by decide +kernel⟩
  have h : (match Parser.parse c!"TAF ZZZZ 041115Z 0412/0512 24005G15KT WS020/24045KT" 200 with
      | .ok r => decide (shearExample ∈ r.groups)
      | .error _ => false) = true := by decide +kernel
  split at h
  · exact ⟨_, ‹_›, of_decide_eq_true h⟩
  · cases h

set_option maxRecDepth 4000 in
/-- The lines of groups of several kinds. -/
example : explanationLines
    ⟨.wind { windType := .SURFACE_WIND, windDir := ⟨240, .VALUE_DEGREES⟩, wSpeed := ⟨some 5, .KNOTS⟩,
             gSpeed := ⟨some 15, .KNOTS⟩ }, .METAR, c!"24005G15KT"⟩ =
    [c!"Surface wind", c!"Wind direction: 240 degrees(southwest)",
     c!"Wind speed: 5 knots (2.5 m/s / 9.2 km/h / 5.7 mph)",
     c!"Gust speed: 15 knots (7.7 m/s / 27.7 km/h / 17.2 mph)"] := by decide +kernel

example : explanationLines ⟨.misc { groupType := .COLOUR_CODE_BLACKAMBER }, .METAR, c!"BLACKAMB"⟩ =
    [c!"Colour code BLACK: aerodrome closed due to snow accumulation or non-weather reasons",
     c!"Colour code AMBER: visibility &gt;800 m and lowest cloud base height &gt;200 ft"] := by decide +kernel

example : explanationLines ⟨.reportTime ⟨⟨some 31, 24, 60⟩⟩, .HEADER, c!"312460Z"⟩ =
    [c!"Data in this group may be errorneous, incomplete or inconsistent",
     c!"Day and time of report release: day 31, 24:60 GMT"] := by decide +kernel

example : explanationLines
    ⟨.cloud { tp := .CLOUD_LAYER, amnt := .BROKEN, heightOrVertVis := Distance.ofUnit 2000 .FEET,
              convtype := .CUMULONIMBUS }, .METAR, c!"BKN020CB"⟩ =
    [c!"Cloud layer", c!"Broken clouds (5/8 to 7/8 sky covered)",
     c!"Base height 2000 feet (609 meters / 3/8 statute miles)", c!"Convective type: cumulonimbus"] := by decide +kernel

/-- A cell with two lines. -/
example : lines (unlines [c!"Cloud layer", c!"Broken"]) = c!"Cloud layer<br>Broken" := by decide +kernel

end Metaf.Props

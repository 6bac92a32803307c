import Verif.Props.PageText
import Verif.Spec.PageIcon

/-!
C126: the icon the page with the summaries shows.
-/

set_option linter.unusedSectionVars false

namespace Metaf.Props

open Metaf Metaf.Spec Metaf.Summary Metaf.Page

variable [FloatIeee]

/-! ### Conditions of the script -/

/-- The names of the script and the texts of reports stand for the same codes. -/
def sameCodes (names texts : List Str) : Bool :=
  names.length = texts.length && (names.zip texts).all fun x =>
    match weatherValue x.1, codeTable.lookup x.2 with
    | .ok n, some m => n = m
    | _, _ => false

theorem includes_has (r : CurrentWeather) : ∀ (names texts : List Str), sameCodes names texts = true →
    ∃ b, includesAny r.weather names = .ok b ∧ (b = true ↔ Has r texts) := by
  intro names
  induction names with
  | nil =>
    intro texts h
    cases texts with
    | nil => exact ⟨false, rfl, by simp [Has]⟩
    | cons t texts => simp [sameCodes] at h
  | cons name names ih =>
    intro texts h
    cases texts with
    | nil => simp [sameCodes] at h
    | cons t texts =>
      simp only [sameCodes, List.length_cons, Nat.add_right_cancel_iff, List.zip_cons_cons, List.all_cons,
        Bool.and_eq_true, decide_eq_true_eq] at h
      obtain ⟨h1, h2, h3⟩ := h
      obtain ⟨b, hb, hb'⟩ := ih texts (by simp only [sameCodes, Bool.and_eq_true, decide_eq_true_eq]; exact ⟨h1, h3⟩)
      unfold includesAny
      cases hv : weatherValue name with
      | error f => rw [hv] at h2; simp at h2
      | ok n =>
        cases hl : codeTable.lookup t with
        | none => rw [hv, hl] at h2; simp at h2
        | some k =>
          rw [hv, hl] at h2
          have e : n = k := by simpa using h2
          subst e
          show ∃ b, (if n ∈ r.weather then Except.ok true else includesAny r.weather names) = .ok b ∧ _
          by_cases hn : n ∈ r.weather
          · rw [if_pos hn]
            exact ⟨true, rfl, fun _ => ⟨t, List.mem_cons_self .., n, hl, hn⟩, fun _ => rfl⟩
          · rw [if_neg hn]
            refine ⟨b, hb, ?_⟩
            rw [hb']
            constructor
            · rintro ⟨x, hx, h⟩
              exact ⟨x, List.mem_cons_of_mem _ hx, h⟩
            · rintro ⟨x, hx, m, hm, hm'⟩
              rcases List.mem_cons.mp hx with rfl | hx
              · rw [hl] at hm
                obtain rfl := Option.some.inj hm
                exact absurd hm' hn
              · exact ⟨x, hx, m, hm, hm'⟩

theorem cloud_is (c : Sky) (names : List Str) (cs : List Sky)
    (h : names.mapM (m := Except Failure) (bound cloudBindings) = .ok cs) :
    cloudIsAny (skyNum c) names = .ok (decide (c ∈ cs)) := by
  induction names generalizing cs with
  | nil =>
    obtain rfl := Except.ok.inj h
    rfl
  | cons name names ih =>
    rw [List.mapM_cons] at h
    unfold cloudIsAny cloudValue
    cases hv : bound cloudBindings name with
    | error f => rw [hv] at h; exact nomatch h
    | ok x =>
      rw [hv] at h
      cases hm : names.mapM (m := Except Failure) (bound cloudBindings) with
      | error f => rw [hm] at h; exact nomatch h
      | ok xs =>
        rw [hm] at h
        obtain rfl := Except.ok.inj h
        show (if skyNum c = skyNum x then Except.ok true else cloudIsAny (skyNum c) names) = _
        have hs : skyNum c = skyNum x ↔ c = x := by cases c <;> cases x <;> decide
        by_cases hc : c = x
        · subst hc
          rw [if_pos rfl]
          simp
        · rw [if_neg (fun h => hc (hs.mp h)), ih xs hm]
          congr 1
          simp [hc]

theorem firstIcon_if {p : Prop} {icon rest : Str} {rules : List (Prop × Str)} {b : Bool} (hb : b = true ↔ p)
    (h : FirstIcon rules rest) : FirstIcon ((p, icon) :: rules) (if b = true then icon else rest) := by
  cases b with
  | false => exact .later (fun hp => Bool.false_ne_true (hb.mpr hp)) h
  | true => exact .here (hb.mp rfl)

theorem and_iff {a b : Bool} {p q : Prop} (ha : a = true ↔ p) (hb : b = true ↔ q) : (a && b) = true ↔ p ∧ q := by
  rw [Bool.and_eq_true, ha, hb]

theorem or_iff {a b : Bool} {p q : Prop} (ha : a = true ↔ p) (hb : b = true ↔ q) : (a || b) = true ↔ p ∨ q := by
  rw [Bool.or_eq_true, ha, hb]

theorem has_append (r : CurrentWeather) (a b : List Str) : Has r (a ++ b) ↔ Has r a ∨ Has r b := by
  unfold Has
  constructor
  · rintro ⟨t, ht, h⟩
    rcases List.mem_append.mp ht with ht | ht
    · exact Or.inl ⟨t, ht, h⟩
    · exact Or.inr ⟨t, ht, h⟩
  · rintro (⟨t, ht, h⟩ | ⟨t, ht, h⟩)
    · exact ⟨t, List.mem_append_left _ ht, h⟩
    · exact ⟨t, List.mem_append_right _ ht, h⟩

/-- C126: the icon is that of the first rule which applies. -/
theorem C126_icon (r : CurrentWeather) (imperial : Bool) :
    ∃ icon, makeWeatherIcon (adaptCurrentWeather r valueNotSpecified) imperial = .ok icon ∧
      FirstIcon (iconRules r imperial) icon := by
  have inc := includes_has r
  obtain ⟨fog, e1, h1⟩ := inc [c!"FOG", c!"FOG_SHALLOW", c!"FOG_PARTIAL", c!"FOG_PATCHES", c!"FOG_FREEZING",
    c!"FOG_IN_VICINITY"] [c!"FG", c!"MIFG", c!"PRFG", c!"BCFG", c!"FZFG", c!"VCFG"] (by decide +kernel)
  obtain ⟨snow, e2, h2⟩ := inc [c!"SNOW_LIGHT", c!"SNOW_MODERATE", c!"SNOW_HEAVY", c!"SNOW_SHOWERS_LIGHT",
    c!"SNOW_SHOWERS_MODERATE", c!"SNOW_SHOWERS_HEAVY"] [c!"-SN", c!"SN", c!"+SN", c!"-SHSN", c!"SHSN", c!"+SHSN"]
    (by decide +kernel)
  obtain ⟨light, e3, h3⟩ := inc [c!"RAIN_LIGHT", c!"RAIN_SHOWERS_LIGHT"] [c!"-RA", c!"-SHRA"] (by decide +kernel)
  obtain ⟨strong, e4, h4⟩ := inc [c!"RAIN_MODERATE", c!"RAIN_HEAVY", c!"RAIN_SHOWERS_MODERATE",
    c!"RAIN_SHOWERS_HEAVY"] [c!"RA", c!"+RA", c!"SHRA", c!"+SHRA"] (by decide +kernel)
  obtain ⟨squalls, e5, h5⟩ := inc [c!"SQUALLS"] [c!"SQ"] (by decide +kernel)
  obtain ⟨mistHaze, e6, h6⟩ := inc [c!"MIST", c!"HAZE"] [c!"BR", c!"HZ"] (by decide +kernel)
  obtain ⟨smoke, e7, h7⟩ := inc [c!"SMOKE"] [c!"FU"] (by decide +kernel)
  obtain ⟨mist, e8, h8⟩ := inc [c!"MIST"] [c!"BR"] (by decide +kernel)
  obtain ⟨dust, e9, h9⟩ := inc [c!"SAND", c!"WIDESPREAD_DUST", c!"ICE_CRYSTALS"] [c!"SA", c!"DU", c!"IC"]
    (by decide +kernel)
  obtain ⟨near, e10, h10⟩ := inc [c!"PRECIPITATION_IN_VICINITY"] [c!"VCSH"] (by decide +kernel)
  obtain ⟨drifting, e11, h11⟩ := inc [c!"DRIFTING_DUST", c!"DRIFTING_SAND", c!"BLOWING_SAND", c!"BLOWING_DUST",
    c!"BLOWING_SPRAY", c!"BLOWING_DUST_IN_VICINITY", c!"BLOWING_SAND_IN_VICINITY", c!"BLOWING_SNOW_IN_VICINITY"]
    [c!"DRDU", c!"DRSA", c!"BLSA", c!"BLDU", c!"PY", c!"VCBLDU", c!"VCBLSA", c!"VCBLSN"] (by decide +kernel)
  obtain ⟨whirls, e12, h12⟩ := inc [c!"DUST_WHIRLS_IN_VICINITY", c!"DUST_WHIRLS"] [c!"VCPO", c!"PO"] (by decide +kernel)
  obtain ⟨drizzle, e13, h13⟩ := inc [c!"DRIZZLE_LIGHT", c!"DRIZZLE_MODERATE", c!"DRIZZLE_HEAVY"]
    [c!"-DZ", c!"DZ", c!"+DZ"] (by decide +kernel)
  obtain ⟨blowing, e14, h14⟩ := inc [c!"BLOWING_SNOW"] [c!"BLSN"] (by decide +kernel)
  obtain ⟨storm, e15, h15⟩ := inc [c!"SANDSTORM", c!"SANDSTORM_HEAVY", c!"SANDSTORM_IN_VICINITY", c!"DUSTSTORM",
    c!"DUSTSTORM_HEAVY", c!"DUSTSTORM_IN_VICINITY"] [c!"SS", c!"+SS", c!"VCSS", c!"DS", c!"+DS", c!"VCDS"]
    (by decide +kernel)
  obtain ⟨hail, e16, h16⟩ := inc [c!"HAIL", c!"GRAUPEL"] [c!"GR", c!"GS"] (by decide +kernel)
  obtain ⟨nearThunder, e17, h17⟩ := inc [c!"THUNDERSTORM_IN_VICINITY"] [c!"VCTS"] (by decide +kernel)
  obtain ⟨thunder, e18, h18⟩ := inc [c!"THUNDERSTORM"] [c!"TS"] (by decide +kernel)
  obtain ⟨freezing, e19, h19⟩ := inc [c!"DRIZZLE_FREEZING_LIGHT", c!"DRIZZLE_FREEZING_MODERATE",
    c!"DRIZZLE_FREEZING_HEAVY", c!"RAIN_FREEZING_LIGHT", c!"RAIN_FREEZING_MODERATE", c!"RAIN_FREEZING_HEAVY"]
    [c!"-FZDZ", c!"FZDZ", c!"+FZDZ", c!"-FZRA", c!"FZRA", c!"+FZRA"] (by decide +kernel)
  obtain ⟨ash, e20, h20⟩ := inc [c!"VOLCANIC_ASH", c!"VOLCANIC_ASH_IN_VICINITY"] [c!"VA", c!"VCVA"] (by decide +kernel)
  obtain ⟨tornado, e21, h21⟩ := inc [c!"FUNNEL_CLOUD", c!"TORNADO"] [c!"FC", c!"+FC"] (by decide +kernel)
  have c1 := cloud_is r.cloud [c!"MOSTLY_CLOUDY", c!"OVERCAST"] [.MOSTLY_CLOUDY, .OVERCAST] (by decide +kernel)
  have c2 := cloud_is r.cloud [c!"CLEAR", c!"MOSTLY_CLEAR"] [.CLEAR, .MOSTLY_CLEAR] (by decide +kernel)
  have c3 := cloud_is r.cloud [c!"MOSTLY_CLOUDY"] [.MOSTLY_CLOUDY] (by decide +kernel)
  have c4 := cloud_is r.cloud [c!"OVERCAST"] [.OVERCAST] (by decide +kernel)
  unfold makeWeatherIcon
  simp only [show (adaptCurrentWeather r valueNotSpecified).weather = r.weather from rfl,
    show (adaptCurrentWeather r valueNotSpecified).cloud = skyNum r.cloud from rfl, e1, e2, e3, e4, e5, e6, e7, e8, e9,
    e10, e11, e12, e13, e14, e15, e16, e17, e18, e19, e20, e21, c1, c2, c3, c4]
  refine ⟨_, rfl, ?_⟩
  have k1 := isHot_iff r imperial
  have k2 := isCold_iff r imperial
  have k3 : isWindy (adaptCurrentWeather r valueNotSpecified).windSpeed imperial = true ↔ _ := isWindy_iff r.windSpeed imperial
  have k4 : isWindy (adaptCurrentWeather r valueNotSpecified).gustSpeed imperial = true ↔ _ := isWindy_iff r.gustSpeed imperial
  have hs : (isWindy (adaptCurrentWeather r valueNotSpecified).windSpeed imperial ||
      isWindy (adaptCurrentWeather r valueNotSpecified).gustSpeed imperial || squalls) = true ↔ Stormy r imperial := by
    rw [or_iff (or_iff k3 k4) h5, or_assoc]
    rfl
  generalize (isWindy _ imperial || isWindy _ imperial || squalls) = stormy at *
  have q1 : decide (r.cloud ∈ [Sky.MOSTLY_CLOUDY, Sky.OVERCAST]) = true ↔
      r.cloud = .MOSTLY_CLOUDY ∨ r.cloud = .OVERCAST := by simp
  have q2 : decide (r.cloud ∈ [Sky.CLEAR, Sky.MOSTLY_CLEAR]) = true ↔
      r.cloud = .CLEAR ∨ r.cloud = .MOSTLY_CLEAR := by simp
  have q3 : decide (r.cloud ∈ [Sky.MOSTLY_CLOUDY]) = true ↔ r.cloud = .MOSTLY_CLOUDY := by simp
  have q4 : decide (r.cloud ∈ [Sky.OVERCAST]) = true ↔ r.cloud = .OVERCAST := by simp
  have q5 : (adaptCurrentWeather r valueNotSpecified).isStormClouds = true ↔ r.isStormClouds = true := Iff.rfl
  have ts : (thunder || nearThunder) = true ↔ Has r [c!"TS", c!"VCTS"] := by
    rw [show [c!"TS", c!"VCTS"] = [c!"TS"] ++ [c!"VCTS"] from rfl, has_append]
    exact or_iff h18 h17
  have po : whirls = true ↔ Has r [c!"PO", c!"VCPO"] := by
    rw [h12, show [c!"PO", c!"VCPO"] = [c!"PO"] ++ [c!"VCPO"] from rfl, has_append,
      show [c!"VCPO", c!"PO"] = [c!"VCPO"] ++ [c!"PO"] from rfl, has_append, or_comm]
  generalize decide (r.cloud ∈ [Sky.MOSTLY_CLOUDY, Sky.OVERCAST]) = cloudy at *
  generalize decide (r.cloud ∈ [Sky.CLEAR, Sky.MOSTLY_CLEAR]) = clear at *
  generalize decide (r.cloud ∈ [Sky.MOSTLY_CLOUDY]) = mostly at *
  generalize decide (r.cloud ∈ [Sky.OVERCAST]) = overcast at *
  have flat : FirstIcon (iconRules r imperial) _ :=
    firstIcon_if h21 <| firstIcon_if h20 <| firstIcon_if h19 <| firstIcon_if (and_iff h18 h4) <|
    firstIcon_if (and_iff h18 h3) <| firstIcon_if ts <| firstIcon_if h16 <| firstIcon_if h15 <|
    firstIcon_if (and_iff h2 (or_iff hs h14)) <| firstIcon_if (and_iff h4 h2) <| firstIcon_if (and_iff h3 h2) <|
    firstIcon_if (and_iff (or_iff h3 h4) hs) <| firstIcon_if h2 <| firstIcon_if h14 <| firstIcon_if h4 <|
    firstIcon_if h3 <| firstIcon_if h13 <| firstIcon_if po <| firstIcon_if h11 <| firstIcon_if h10 <|
    firstIcon_if h9 <| firstIcon_if (and_iff h7 (or_iff h8 h1)) <| firstIcon_if h7 <| firstIcon_if h1 <|
    firstIcon_if h6 <| firstIcon_if (and_iff hs q1) <| firstIcon_if hs <| firstIcon_if k2 <| firstIcon_if k1 <|
    firstIcon_if q4 <| firstIcon_if (or_iff q3 q5) <| firstIcon_if q2 <| .here trivial
  convert flat using 1
  have t1 : ∀ rest : Str, (if thunder = true then (if strong = true then c!"&#xf01e;" else if light = true then c!"&#xf01d;"
        else c!"&#xf016;") else if nearThunder = true then c!"&#xf016;" else rest) =
      if (thunder && strong) = true then c!"&#xf01e;" else if (thunder && light) = true then c!"&#xf01d;"
      else if (thunder || nearThunder) = true then c!"&#xf016;" else rest := by
    intro rest
    cases thunder <;> cases strong <;> cases light <;> cases nearThunder <;> rfl
  have t2 : ∀ rest : Str, (if smoke = true then (if (mist || fog) = true then c!"&#xf074;" else c!"&#xf062;") else rest) =
      if (smoke && (mist || fog)) = true then c!"&#xf074;" else if smoke = true then c!"&#xf062;" else rest := by
    intro rest
    cases smoke <;> cases (mist || fog) <;> rfl
  have t3 : ∀ rest : Str, (if stormy = true then (if cloudy = true then c!"&#xf011;" else c!"&#xf050;") else rest) =
      if (stormy && cloudy) = true then c!"&#xf011;" else if stormy = true then c!"&#xf050;" else rest := by
    intro rest
    cases stormy <;> cases cloudy <;> rfl
  rw [t1, t2, t3]

end Metaf.Props

namespace Metaf.Props

open Metaf Metaf.Spec Metaf.Summary Metaf.Page

variable [FloatIeee]

/-- There is only one such icon. -/
theorem C126_unique {rules : List (Prop × Str)} {a b : Str} (ha : FirstIcon rules a) (hb : FirstIcon rules b) :
    a = b := by
  induction ha with
  | here hp =>
    cases hb with
    | here _ => rfl
    | later hn _ => exact absurd hp hn
  | later hn _ ih =>
    cases hb with
    | here hp => exact absurd hp hn
    | later _ hb => exact ih hb

theorem has_congr {r r' : CurrentWeather} (h : ∀ n, n ∈ r.weather ↔ n ∈ r'.weather) (texts : List Str) :
    Has r texts = Has r' texts := by
  unfold Has
  simp only [h]

/-- C126: the order and repetition of the weather make no difference, nor do other members of the summary. -/
theorem C126_order {r r' : CurrentWeather} (imperial : Bool) (h : ∀ n, n ∈ r.weather ↔ n ∈ r'.weather)
    (h1 : r.windSpeed = r'.windSpeed) (h2 : r.gustSpeed = r'.gustSpeed) (h3 : r.cloud = r'.cloud)
    (h4 : r.isStormClouds = r'.isStormClouds) (h5 : r.airTemperature = r'.airTemperature)
    (h6 : r.perceivedTemperature = r'.perceivedTemperature) :
    makeWeatherIcon (adaptCurrentWeather r valueNotSpecified) imperial =
      makeWeatherIcon (adaptCurrentWeather r' valueNotSpecified) imperial := by
  obtain ⟨a, ea, ha⟩ := C126_icon r imperial
  obtain ⟨b, eb, hb⟩ := C126_icon r' imperial
  have : iconRules r imperial = iconRules r' imperial := by
    unfold iconRules Snow StrongRain LightRain Fog Stormy Fast Cold Hot judged
    simp only [has_congr h, h1, h2, h3, h4, h5, h6]
  rw [this] at ha
  rw [ea, eb, C126_unique ha hb]

theorem firstIcon_split {a b : List (Prop × Str)} {icon : Str} (h : FirstIcon (a ++ b) icon) (hp : ∃ x ∈ a, x.1) :
    ∃ x ∈ a, x.2 = icon := by
  induction a with
  | nil => obtain ⟨x, hx, -⟩ := hp; exact nomatch hx
  | cons y a ih =>
    cases h with
    | here _ => exact ⟨_, List.mem_cons_self .., rfl⟩
    | later hn h =>
      obtain ⟨x, hx, hp⟩ := hp
      rcases List.mem_cons.mp hx with rfl | hx
      · exact absurd hp hn
      · obtain ⟨z, hz, e⟩ := ih h ⟨x, hx, hp⟩
        exact ⟨z, List.mem_cons_of_mem _ hz, e⟩

/-- C127: with precipitation, the icon is not one for dry weather. (Missing: snow grains, ice pellets and undetermined
precipitation, see `C127_violated`.) -/
theorem C127_precipitation_partial (r : CurrentWeather) (imperial : Bool) (t : Str) (ht : t ∈ precipitationTexts)
    (hn : t ∉ withoutIcon) (h : Has r [t]) (icon : Str)
    (he : makeWeatherIcon (adaptCurrentWeather r valueNotSpecified) imperial = .ok icon) : icon ∉ dryIcons := by
  obtain ⟨icon', e, hf⟩ := C126_icon r imperial
  rw [he] at e
  obtain rfl := Except.ok.inj e
  have hsplit : iconRules r imperial = (iconRules r imperial).take 17 ++ (iconRules r imperial).drop 17 :=
    (List.take_append_drop ..).symm
  rw [hsplit] at hf
  have hmono : ∀ {l : List Str}, t ∈ l → Has r l := by
    intro l hl
    obtain ⟨x, hx, hc⟩ := h
    rw [List.mem_singleton] at hx
    subst hx
    exact ⟨x, hl, hc⟩
  have hex : ∃ x ∈ (iconRules r imperial).take 17, x.1 := by
    have hcase : t ∈ [c!"-FZDZ", c!"FZDZ", c!"+FZDZ", c!"-FZRA", c!"FZRA", c!"+FZRA"] ∨ t ∈ [c!"GR", c!"GS"] ∨
        t ∈ [c!"-SN", c!"SN", c!"+SN", c!"-SHSN", c!"SHSN", c!"+SHSN"] ∨ t ∈ [c!"RA", c!"+RA", c!"SHRA", c!"+SHRA"] ∨
        t ∈ [c!"-RA", c!"-SHRA"] ∨ t ∈ [c!"-DZ", c!"DZ", c!"+DZ"] := by
      clear hmono h
      revert t
      decide +kernel
    rcases hcase with hc | hc | hc | hc | hc | hc
    · exact ⟨_, List.mem_iff_getElem?.mpr ⟨2, rfl⟩, hmono hc⟩
    · exact ⟨_, List.mem_iff_getElem?.mpr ⟨6, rfl⟩, hmono hc⟩
    · exact ⟨_, List.mem_iff_getElem?.mpr ⟨12, rfl⟩, hmono hc⟩
    · exact ⟨_, List.mem_iff_getElem?.mpr ⟨14, rfl⟩, hmono hc⟩
    · exact ⟨_, List.mem_iff_getElem?.mpr ⟨15, rfl⟩, hmono hc⟩
    · exact ⟨_, List.mem_iff_getElem?.mpr ⟨16, rfl⟩, hmono hc⟩
  obtain ⟨x, hx, hxi⟩ := firstIcon_split hf hex
  have hicon : icon ∈ ((iconRules r imperial).take 17).map Prod.snd := hxi ▸ List.mem_map_of_mem hx
  have hlist : ((iconRules r imperial).take 17).map Prod.snd =
      [c!"&#xf056;", c!"&#xf0c8;",
       c!"<img class=\"ww_freezing_precip\" src=\"weather_widget/icicles-solid-wh.svg\">", c!"&#xf01e;",
       c!"&#xf01d;", c!"&#xf016;", c!"&#xf0b5;", c!"&#xf082;", c!"&#xf064;", c!"&#xf015;", c!"&#xf017;",
       c!"&#xf018;", c!"&#xf01b;", c!"&#xf082;", c!"&#xf019;", c!"&#xf01a;", c!"&#xf01c;"] := rfl
  rw [hlist] at hicon
  have hno : ∀ i ∈ [c!"&#xf056;", c!"&#xf0c8;",
       c!"<img class=\"ww_freezing_precip\" src=\"weather_widget/icicles-solid-wh.svg\">", c!"&#xf01e;",
       c!"&#xf01d;", c!"&#xf016;", c!"&#xf0b5;", c!"&#xf082;", c!"&#xf064;", c!"&#xf015;", c!"&#xf017;",
       c!"&#xf018;", c!"&#xf01b;", c!"&#xf082;", c!"&#xf019;", c!"&#xf01a;", c!"&#xf01c;"], i ∉ dryIcons := by
    decide +kernel
  exact hno icon hicon

end Metaf.Props

namespace Metaf.Props

open Metaf Metaf.Spec Metaf.Summary Metaf.Page

attribute [local instance] ieee

/-- The icon of a METAR report. -/
def exampleIcon (metar : Str) : Js Str := do
  let r ← call (getCurrentWeather metar [] 2020 1 1 false)
  makeWeatherIcon (adaptCurrentWeather r valueNotSpecified) false

/-- A thunderstorm with heavy rain; rain with strong wind; a clear sky. -/
example : exampleIcon c!"METAR EGLL 011150Z 24005KT 9999 +TSRA FEW030CB 12/05 Q1013=" = .ok c!"&#xf01e;" ∧
    exampleIcon c!"METAR EGLL 011150Z 24035KT 9999 -RA OVC010 12/05 Q1013=" = .ok c!"&#xf018;" ∧
    exampleIcon c!"METAR EGLL 011150Z 24005KT CAVOK 12/05 Q1013=" = .ok c!"&#x0020;" := by decide +kernel

/-- Rain, as `C127` asks. -/
example : ∃ r, getCurrentWeather c!"METAR EGLL 011150Z 24005KT 9999 -RA OVC010 12/05 Q1013=" [] 2020 1 1 false = .ok r ∧
    Has r [c!"-RA"] ∧ c!"-RA" ∈ precipitationTexts ∧ c!"-RA" ∉ withoutIcon := by
  have h : (getCurrentWeather c!"METAR EGLL 011150Z 24005KT 9999 -RA OVC010 12/05 Q1013=" [] 2020 1 1 false).map
    (·.weather) = .ok [33] := by kernel_rfl
  obtain ⟨r, hr, h⟩ := map_ok h
  exact ⟨r, hr, ⟨_, List.mem_singleton.mpr rfl, 33, rfl, by rw [h]; decide⟩, by decide +kernel, by decide +kernel⟩

/-- C127: snow grains under an overcast sky are shown as an overcast sky. -/
theorem C127_violated : ∃ metar r icon, getCurrentWeather metar [] 2020 1 1 false = .ok r ∧
    makeWeatherIcon (adaptCurrentWeather r valueNotSpecified) false = .ok icon ∧
    (∃ t ∈ precipitationTexts, Has r [t]) ∧ icon ∈ dryIcons := by
  have h : (getCurrentWeather c!"METAR EGLL 011150Z 24005KT 9999 +SG OVC010 M02/M05 Q1013=" [] 2020 1 1 false).map
    (fun r => (r.weather, makeWeatherIcon (adaptCurrentWeather r valueNotSpecified) false)) =
      .ok ([44], .ok c!"&#xf013;") := by kernel_rfl
  obtain ⟨r, hr, h⟩ := map_ok h
  simp only [Prod.mk.injEq] at h
  refine ⟨_, r, _, hr, h.2, ⟨c!"+SG", by decide +kernel, _, List.mem_singleton.mpr rfl, 44, rfl, ?_⟩, by decide +kernel⟩
  rw [h.1]
  decide

end Metaf.Props

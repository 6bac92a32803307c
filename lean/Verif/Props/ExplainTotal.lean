import Verif.Proofs.Explain
import Verif.Props.Heights
import Verif.Props.SummaryTotal

/-!
C98: an explanation (`/repo/examples/explain.cpp`) is made of every text, unless the text has a variable
runway visual range which belongs to no runway. On `std::pow` it is assumed that powers of ten are of the
magnitude they should be.
-/

set_option linter.unusedSectionVars false

namespace Metaf.Props

open Metaf Metaf.Spec Metaf.Explain

variable [FloatIeee]

/-! ### Specification -/

/-- A runway visual range which varies although it does not belong to a runway. -/
def Stray : Group → Prop
  | .visibility g => g.visType = .VARIABLE_RVR ∧ g.rw = none
  | _ => False

instance (g : Group) : Decidable (Stray g) := by
  unfold Stray
  split <;> infer_instance

/-! ### Numbers -/

theorem near_small {d : Distance} (h : Near d) (u : DistanceUnit) : Small (d.toUnit u) := by
  obtain ⟨m, v, w⟩ := d
  cases v with
  | none => intro q hq; cases hq
  | some v =>
    have hv : v ≤ 2000000 := h v rfl
    obtain ⟨r, hr, hw⟩ := C31_distance_value m v (by omega) w u
    intro q hq
    rw [hr] at hq
    obtain rfl := Option.some.inj hq
    have h0 : (0 : Rat) ≤ v := by positivity
    have h1 : (v : Rat) ≤ 2000000 := by exact_mod_cast hv
    refine le_trans (within_small hw ?_ ?_) (by norm_num)
    · cases w <;> cases u <;> simp only [metersPer, storedAmount] <;> positivity
    · cases w <;> cases u <;> simp only [metersPer, storedAmount] <;> norm_num <;> linarith

theorem shown_small {q : Rat} (h : |q| ≤ 2100000000) : Shown (showAsInt q) :=
  (shown_int q).mpr (toInt_small h)

theorem distance_shown {d : Distance} (h : Near d) : Shown (explainDistance d) := by
  have hs := near_small h
  have hc : Shown (distanceConverted d) := by
    unfold distanceConverted
    simp only [shown_cons, shown_nil, shown_opt, shown_text, and_true]
    refine ⟨fun _ => ?_, fun _ => ⟨?_, fun _ => trivial⟩, fun _ => ?_⟩
    · split
      · rename_i q hq
        simp only [shown_cons, shown_nil, shown_text, and_true]
        exact shown_small (hs _ q hq)
      · exact ⟨_, rfl⟩
    · split
      · simp only [shown_cons, shown_nil, shown_text, and_true]
      · exact ⟨_, rfl⟩
    · split
      · rename_i q hq
        simp only [shown_cons, shown_nil, shown_text, and_true]
        exact shown_small (hs _ q hq)
      · exact ⟨_, rfl⟩
  unfold explainDistance
  split
  · exact ⟨_, rfl⟩
  split
  · exact ⟨_, rfl⟩
  split
  · split
    · exact ⟨_, rfl⟩
    · simp only [shown_cons, shown_nil, shown_text, and_true, true_and]
      exact hc
  · split
    · exact ⟨_, rfl⟩
    · rename_i q hq
      simp only [shown_cons, shown_nil, shown_text, and_true, true_and]
      exact ⟨shown_small (hs _ q hq), hc⟩

theorem cloudType_shown {c : CloudType} (h : Near c.ht) : Shown (explainCloudType c) := by
  unfold explainCloudType
  simp only [shown_cons, shown_nil, shown_text, shown_opt, and_true, true_and]
  exact fun _ => distance_shown h

/-! ### Groups -/

/-- Simplifies the statement that a text can be computed. -/
local macro "shown" : tactic =>
  `(tactic| simp only [shown_cons, shown_nil, shown_text, shown_opt, shown_onSome, shown_value, shown_notice,
      shown_listed, and_true, true_and, implies_true, and_self])

theorem isSome_shown {α : Type} {v : Option α} (h : v.isSome = true) : ∃ a, v = some a :=
  Option.isSome_iff_exists.mp h

theorem trend_shown {p : ReportPart} {g : TrendGroup} (h : TrendOffers p g) : Shown (visitTrendGroup g) := by
  unfold visitTrendGroup
  shown
  unfold trendText
  split <;> rename_i ht <;> (try simp only [trendTimes, trendProbability]) <;> shown
  · exact isSome_shown (h.since ht).2.1
  · exact isSome_shown (h.till ht).2.2.1
  · exact isSome_shown (h.moment ht).2.2.2
  · exact ⟨isSome_shown (h.span ht).1, isSome_shown (h.span ht).2.1⟩

theorem windGroup_shown {p : ReportPart} {g : WindGroup} (h : WindOffers p g) (hb : Near g.wShHeight) :
    Shown (visitWindGroup g) := by
  unfold visitWindGroup
  shown
  unfold windGroupText
  split <;> rename_i ht <;> (try simp only [windText, sectorText, shiftText]) <;> shown
  · exact distance_shown hb
  · exact isSome_shown (h.peak ht).2.2.2

theorem near_visibility {g : VisibilityGroup} (h : Near g.vis ∧ Near g.visMax) :
    Near g.visibility ∧ Near g.minVisibility ∧ Near g.maxVisibility := by
  refine ⟨?_, ?_, h.2⟩
  · unfold VisibilityGroup.visibility
    split
    · exact near_none
    · exact h.1
  · unfold VisibilityGroup.minVisibility
    split
    · exact near_none
    · exact h.1

theorem visibility_shown {g : VisibilityGroup} (h : VisibilityOffers g) (hb : Near g.vis ∧ Near g.visMax)
    (hs : ¬ Stray (.visibility g)) : Shown (visitVisibilityGroup g) := by
  obtain ⟨h1, h2, h3⟩ := near_visibility hb
  have h1 := distance_shown h1
  have h2 := distance_shown h2
  have h3 := distance_shown h3
  have hd : Shown (visibilitySector g) := by
    unfold visibilitySector
    shown
    obtain ⟨v, hv, -⟩ := h.sector
    exact ⟨v, hv 64 (by norm_num)⟩
  have hr := h.ofRunway
  have hdir := h.ofDirection
  have hst : ∀ o, g.visType = .VARIABLE_RVR → g.rw = o → o.isSome = true := by
    intro o ht ho
    cases o with
    | none => exact absurd ⟨ht, ho⟩ hs
    | some _ => rfl
  unfold visitVisibilityGroup
  shown
  unfold visibilityText
  split <;> rename_i ht <;> (try simp only [visibilityRange, Explain.rvrTrendText]) <;> (try simp only [ht] at hr hdir) <;> (try shown)
  all_goals first
    | exact h1
    | exact ⟨h1, hd⟩
    | exact ⟨h2, h3⟩
    | exact ⟨⟨h2, h3⟩, hd⟩
    | exact ⟨isSome_shown (hst _ ht rfl), h2, h3⟩
    | exact ⟨isSome_shown (hdir (by simp)), h1⟩
    | exact ⟨isSome_shown (hdir (by simp)), h2, h3⟩
    | exact ⟨isSome_shown (hr (by simp)), h1⟩
    | exact ⟨isSome_shown (hr (by simp)), h2, h3⟩
    | skip
  split
  · exact ⟨_, rfl⟩
  · rename_i hn
    shown
    refine ⟨?_, h1⟩
    cases hrw : g.rw with
    | none => rw [hrw] at hn; exact absurd rfl hn
    | some r => exact ⟨r, rfl⟩

theorem cloud_shown {g : CloudGroup} (h : Near g.heightOrVertVis ∧ Near g.maxHt ∧ Near g.cldTp.ht) :
    Shown (visitCloudGroup g) := by
  obtain ⟨h1, h2, h3⟩ := h
  have e1 : Shown (explainDistance g.height) := by
    refine distance_shown ?_
    unfold CloudGroup.height
    split
    · exact near_none
    · exact h1
  have e2 : Shown (explainDistance g.verticalVisibility) := by
    refine distance_shown ?_
    unfold CloudGroup.verticalVisibility
    split
    · exact near_none
    · exact h1
  have e3 : Shown (explainDistance g.minHeight) := by
    refine distance_shown ?_
    unfold CloudGroup.minHeight
    split
    · exact near_none
    · exact h1
  have e4 : Shown (explainDistance g.maxHeight) := by
    refine distance_shown ?_
    unfold CloudGroup.maxHeight
    split
    · exact near_none
    · exact h2
  unfold visitCloudGroup
  shown
  unfold cloudText
  split <;> rename_i ht <;> (try simp only [ceilingPlace]) <;> shown
  all_goals first
    | exact e1
    | exact e2
    | exact ⟨e3, e4⟩
    | skip
  intro c hc
  refine cloudType_shown ?_
  simp only [CloudGroup.cloudType, ht] at hc
  obtain rfl := Option.some.inj hc
  exact h3

theorem weather_shown {g : WeatherGroup} (h : ∃ b, g.isValid = .ok b) : Shown (visitWeatherGroup g) := by
  obtain ⟨b, hb⟩ := h
  unfold visitWeatherGroup
  rw [hb]
  show Shown (cat [notice b, Explain.weatherText g])
  shown
  have hp : Shown (phenomenaText g) := by
    unfold phenomenaText
    rw [shown_cat]
    intro r hr
    obtain ⟨p, -, rfl⟩ := List.mem_map.mp hr
    exact ⟨_, rfl⟩
  unfold Explain.weatherText
  split <;> shown <;> exact hp

theorem temperature_shown (hp : PowTen) {g : TemperatureGroup} (h : Modest (.temperature g)) :
    Shown (visitTemperatureGroup g) := by
  unfold visitTemperatureGroup
  shown
  unfold temperatureText
  split <;> shown
  exact fun q hq => shown_small (humidity_small hp h.1 h.2 q hq)

theorem minMax_shown {p : ReportPart} {g : MinMaxTemperatureGroup} (h : MinMaxOffers p g) :
    Shown (visitMinMaxTemperatureGroup g) := by
  unfold visitMinMaxTemperatureGroup
  shown
  unfold minMaxText
  split <;> rename_i ht <;> (try simp only [observedText]) <;> shown
  exact ⟨fun hr => isSome_shown (h.minTime.mpr ⟨ht, hr⟩), fun hr => isSome_shown (h.maxTime.mpr ⟨ht, hr⟩)⟩

theorem layerForecast_shown {g : LayerForecastGroup} (h : Near g.layerBaseHeight ∧ Near g.layerTopHeight) :
    Shown (visitLayerForecastGroup g) := by
  unfold visitLayerForecastGroup
  shown
  split <;> shown
  exact ⟨distance_shown h.1, distance_shown h.2⟩

theorem cloudTypes_shown {g : CloudTypesGroup} (h : ∀ c ∈ g.cldTp, Near c.ht) : Shown (visitCloudTypesGroup g) := by
  unfold visitCloudTypesGroup
  shown
  rw [shown_cat]
  intro r hr
  obtain ⟨c, hc, rfl⟩ := List.mem_map.mp hr
  shown
  exact cloudType_shown (h c hc)

theorem lightning_shown {p : ReportPart} {g : LightningGroup} (h : LightningOffers p g) (hb : Near g.dist) :
    Shown (visitLightningGroup g) := by
  unfold visitLightningGroup
  shown
  refine ⟨fun _ => distance_shown hb, ?_⟩
  obtain ⟨v, hv, -⟩ := h.directions
  exact ⟨v, hv 64 (by norm_num)⟩

theorem vicinity_shown {p : ReportPart} {g : VicinityGroup} (h : VicinityOffers p g) (hb : Near g.dist) :
    Shown (visitVicinityGroup g) := by
  unfold visitVicinityGroup
  shown
  refine ⟨fun _ => distance_shown hb, ?_⟩
  obtain ⟨v, hv, -⟩ := h.directions
  exact ⟨v, hv.1 64 (by norm_num)⟩

theorem misc_shown {p : ReportPart} {g : MiscGroup} (h : MiscOffers p g) (hb : Bounded (.misc g)) :
    Shown (visitMiscGroup g) := by
  have hb : g.groupType ∈ [MiscType.CORRECTED_WEATHER_OBSERVATION, .ISSUER_ID_FN, .ISSUER_ID_FS] →
      ∀ q ∈ g.groupData, 0 ≤ q ∧ q ≤ 100000 := hb
  have hd := h.data
  have num : g.groupType ∈ [MiscType.CORRECTED_WEATHER_OBSERVATION, .ISSUER_ID_FN, .ISSUER_ID_FS] →
      g.groupData.isSome = true → ∃ a, g.groupData = some a ∧ Shown (showAsInt a) := by
    intro ht hs
    obtain ⟨a, ha⟩ := isSome_shown hs
    obtain ⟨h0, h1⟩ := hb ht a ha
    exact ⟨a, ha, shown_small (by rw [abs_of_nonneg h0]; linarith)⟩
  unfold visitMiscGroup
  shown
  unfold miscText
  split <;> rename_i ht <;> (try simp only [ht] at hd num) <;> shown
  · obtain ⟨a, ha⟩ := isSome_shown (hd (by simp [wordTypes, colourCodes]) (by simp))
    refine ⟨a, ha, ?_⟩
    split <;> shown
  · exact num (by simp) (hd (by simp [wordTypes, colourCodes]) (by simp))
  · split <;> shown
  · exact isSome_shown (hd (by simp [wordTypes, colourCodes]) (by simp))
  · exact num (by simp) (hd (by simp [wordTypes, colourCodes]) (by simp))
  · exact num (by simp) (hd (by simp [wordTypes, colourCodes]) (by simp))

/-- `isValid` can be called for every group of every result. -/
theorem valid_known {report : Str} {limit : Nat} {r : ParseResult} (h : Result report limit r) :
    ∀ x ∈ r.groups, ∃ b, groupValid x.group = .ok b := by
  refine every_group (O := fun _ g => ∃ b, groupValid g = .ok b) (fun _ _ => ⟨_, rfl⟩) ?_ (fun _ => ⟨_, rfl⟩)
    (fun _ _ _ hp hw _ => ?_) (fun _ _ _ _ hr hl => ?_) (fun _ _ _ _ _ => ⟨_, rfl⟩) h
  · intro s g hw
    cases hw <;> exact ⟨_, rfl⟩
  · obtain ⟨b, hb, -⟩ := C71_valid hp hw
    exact ⟨b, hb⟩
  · obtain ⟨b, hb, -⟩ := C74_remark hr hl
    exact ⟨b, hb⟩

theorem visit_shown (hp : PowTen) {report : Str} {limit : Nat} {r : ParseResult} (h : Result report limit r)
    {x : GroupInfo} (hx : x ∈ r.groups) (hs : ¬ Stray x.group) :
    Shown (visitor.visit x.group x.reportPart x.rawString) := by
  have hb := said_bounded h x hx
  have hm := said_modest (C75_said h x hx)
  have hv := valid_known h x hx
  have c76 := C76_visibility _ _ _ h x hx
  have c78 := C78_wind _ _ _ h x hx
  have c79 := C79_trend _ _ _ h x hx
  have c81 := C81_minMax _ _ _ h x hx
  have c83l := C83_lightning _ _ _ h x hx
  have c83v := C83_vicinity _ _ _ h x hx
  have c83m := C83_misc _ _ _ h x hx
  obtain ⟨g, p, s⟩ := x
  simp only at *
  cases g with
  | keyword g => show Shown (cat _); shown
  | location g => show Shown (cat _); shown
  | reportTime g => show Shown (cat _); shown
  | trend g => exact trend_shown (c79 g rfl)
  | wind g => exact windGroup_shown (c78 g rfl) hb
  | visibility g => exact visibility_shown (c76 g rfl) hb hs
  | cloud g => exact cloud_shown hb
  | weather g => exact weather_shown hv
  | temperature g => exact temperature_shown hp hm
  | pressure g => show Shown (cat _); shown
  | runwayState g => show Shown (cat _); shown
  | seaSurface g => show Shown (cat _); shown
  | minMaxTemperature g => exact minMax_shown (c81 g rfl)
  | precipitation g => show Shown (cat _); shown
  | layerForecast g => exact layerForecast_shown hb
  | pressureTendency g => show Shown (cat _); shown
  | cloudTypes g => exact cloudTypes_shown hb
  | lowMidHighCloud g => show Shown (cat _); shown
  | lightning g => exact lightning_shown (c83l g rfl) hb
  | vicinity g => exact vicinity_shown (c83v g rfl) hb
  | misc g => exact misc_shown (c83m g rfl) hb
  | unknown g => show Shown (cat _); shown

theorem visit_stray {g : Group} (h : Stray g) (p : ReportPart) (s : Str) :
    visitor.visit g p s = .error .emptyOptional := by
  cases g with
  | visibility g =>
    obtain ⟨h1, h2⟩ := h
    show visitVisibilityGroup g = _
    have e : visibilityText g = .error .emptyOptional := by
      unfold visibilityText
      simp only [h1, h2]
      rfl
    unfold visitVisibilityGroup
    rw [e]
    unfold notice opt
    split <;> rfl
  | _ => exact absurd h id

theorem cat_error {f : Fault} {rs : List (Res Str)} (h : ∀ r ∈ rs, Shown r ∨ r = .error f)
    (he : ∃ r ∈ rs, r = .error f) : cat rs = .error f := by
  induction rs with
  | nil => obtain ⟨r, hr, -⟩ := he; cases hr
  | cons r rs ih =>
    rw [cat_cons]
    rcases h r (List.mem_cons_self ..) with ⟨s, rfl⟩ | rfl
    · obtain ⟨r', hr', e⟩ := he
      rcases List.mem_cons.mp hr' with rfl | hr'
      · cases e
      · rw [ih (fun x hx => h x (List.mem_cons_of_mem _ hx)) ⟨r', hr', e⟩]
    · rfl

theorem row_shown {x : GroupInfo} (h : Shown (visitor.visit x.group x.reportPart x.rawString)) :
    Shown (row x) := by
  obtain ⟨s, hs⟩ := h
  unfold row
  rw [hs]
  shown
  exact ⟨_, replaceBreaks_eq s⟩

theorem row_stray {x : GroupInfo} (h : Stray x.group) : row x = .error .emptyOptional := by
  unfold row
  rw [visit_stray h]
  rfl

theorem explain_parsed {memory input : Str} {r : ParseResult} (h : Result input 200 r) :
    explain memory input = table r := by
  unfold explain
  rw [show Parser.parse input = .ok r from h]
  show (do let t ← table r; .ok ([] ++ t) : Res Str) = _
  cases table r <;> rfl

/-! ### Theorems -/

/-- C98 (partial: the explanation of some texts fails). An explanation is made of every text in which no
group is a variable runway visual range without a runway. -/
theorem C98_total_partial (hp : PowTen) (memory input : Str) (r : ParseResult) (h : Result input 200 r)
    (hs : ∀ x ∈ r.groups, ¬ Stray x.group) : ∃ page, explain memory input = .ok page := by
  rw [explain_parsed h]
  show Shown (table r)
  unfold table
  shown
  rw [shown_cat]
  intro x hx
  obtain ⟨y, hy, rfl⟩ := List.mem_map.mp hx
  exact row_shown (visit_shown hp h hy (hs y hy))

/-- C98. For all other texts the value of an empty `std::optional` is taken, and nothing else goes wrong. -/
theorem C98_stray (hp : PowTen) (memory input : Str) (r : ParseResult) (h : Result input 200 r)
    (hs : ∃ x ∈ r.groups, Stray x.group) : explain memory input = .error .emptyOptional := by
  have hrows : cat (r.groups.map row) = .error .emptyOptional := by
    refine cat_error ?_ ?_
    · intro q hq
      obtain ⟨y, hy, rfl⟩ := List.mem_map.mp hq
      by_cases hst : Stray y.group
      · exact Or.inr (row_stray hst)
      · exact Or.inl (row_shown (visit_shown hp h hy hst))
    · obtain ⟨x, hx, hst⟩ := hs
      exact ⟨_, List.mem_map_of_mem hx, row_stray hst⟩
  rw [explain_parsed h]
  unfold table
  rw [hrows]
  unfold opt
  split <;> rfl

end Metaf.Props

/-! ### Cases -/

namespace Metaf.Props

open Metaf Metaf.Spec Metaf.Explain

attribute [local instance] ieee

/-- C98. The text `R///////V0800`, which the parser recognises, makes `explain` throw an exception. -/
theorem C98_violated : ∃ input : Str, ∀ memory, explain memory input = .error .emptyOptional :=
  ⟨c!"METAR UKLL 101010Z R///////V0800", fun _ => by kernel_rfl⟩

/-- All its groups are recognised and there is no error; the last group is not valid. -/
example : (Parser.parse c!"METAR UKLL 101010Z R///////V0800").map
    (fun r => (r.reportMetadata.error, r.groups.map (fun x => (groupValid x.group, decide (Stray x.group))))) =
    .ok (.NONE, [(.ok true, false), (.ok true, false), (.ok true, false), (.ok false, true)]) := by kernel_rfl

set_option maxRecDepth 4000 in
/-- A report with wind, visibility, clouds, temperature and remarks is explained. -/
example : PowTen ∧ (Parser.parse c!"METAR UKLL 101010Z 24005MPS 9999 R24/0800V1200 FEW020 12/05 Q1013 RMK SLP123").map
    (fun r => r.groups.all fun x => decide (¬ Stray x.group)) = .ok true :=
  ⟨powTen_ieee, by kernel_rfl⟩

end Metaf.Props

import Verif.RegexSyntax
import Verif.Proofs.Util
import Verif.Model.Parser

/-!
The syntax trees of the model are those of the literals in the source, up to the nesting of
sequences and alternatives, which does not affect matching.
-/

namespace Metaf

namespace Rx

theorem run_seq_eps (a : Rx) (s : Str) : (Rx.seq a .eps).run s = a.run s := by
  simp [run, List.flatMap_def]
  induction a.run s with
  | nil => rfl
  | cons m ms ih => simp [ih]

theorem run_eps_seq (b : Rx) (s : Str) : (Rx.seq .eps b).run s = b.run s := by
  simp [run]

theorem run_seq_assoc (a b c : Rx) (s : Str) :
    (Rx.seq (.seq a b) c).run s = (Rx.seq a (.seq b c)).run s := by
  simp only [run, List.flatMap_assoc, List.flatMap_map, List.map_flatMap, List.map_map,
    Function.comp_def, List.append_assoc]

theorem run_seq_congr {a a' b b' : Rx} (ha : ∀ s, a.run s = a'.run s)
    (hb : ∀ s, b.run s = b'.run s) (s : Str) : (Rx.seq a b).run s = (Rx.seq a' b').run s := by
  simp only [run, ha, hb]

theorem run_mkSeq (a b : Rx) : ∀ s, (mkSeq a b).run s = (Rx.seq a b).run s := by
  induction a generalizing b with
  | seq x y ihx ihy =>
    intro s
    rw [mkSeq, ihx, run_seq_assoc]
    exact run_seq_congr (fun _ => rfl) (ihy b) s
  | eps => intro s; rw [mkSeq, run_eps_seq]
  | set rs => intro s; cases b <;> simp only [mkSeq, run_seq_eps]
  | alt x y _ _ => intro s; cases b <;> simp only [mkSeq, run_seq_eps]
  | star x _ => intro s; cases b <;> simp only [mkSeq, run_seq_eps]
  | cap i x _ => intro s; cases b <;> simp only [mkSeq, run_seq_eps]

theorem run_mkAlt (a b : Rx) : ∀ s, (mkAlt a b).run s = (Rx.alt a b).run s := by
  induction a generalizing b with
  | alt x y ihx ihy =>
    intro s
    rw [mkAlt, ihx]
    simp only [run, ihy, List.append_assoc]
  | _ => intro s; rfl

/-- The normal form matches the same texts, in the same order and with the same sub-matches. -/
theorem run_norm (r : Rx) : ∀ s, r.norm.run s = r.run s := by
  induction r with
  | eps => intro s; rfl
  | set rs => intro s; rfl
  | seq a b iha ihb => intro s; rw [norm, run_mkSeq]; exact run_seq_congr iha ihb s
  | alt a b iha ihb => intro s; rw [norm, run_mkAlt]; simp only [run, iha, ihb]
  | star a ih =>
    intro s
    have : a.norm.run = a.run := funext ih
    simp only [norm, run, this]
  | cap i a ih => intro s; simp only [norm, run, ih]

/-- `r` is the regular expression written as `text`. -/
def Writes (text : Str) (r : Rx) : Prop := (read text).map norm = some r.norm

instance (text : Str) (r : Rx) : Decidable (Writes text r) := by unfold Writes; infer_instance

/-- What `Writes` means for matching: the literal can be read, and its syntax tree matches every
text in the same ways as `r`. -/
theorem Writes.same {text : Str} {r : Rx} (h : Writes text r) :
    ∃ q, read text = some q ∧ (∀ s, q.run s = r.run s) ∧
      (∀ s, regexMatch q s = regexMatch r s) ∧ ∀ n s, searchAll q n s = searchAll r n s := by
  unfold Writes at h
  cases hq : read text with
  | none => simp [hq] at h
  | some q =>
    rw [hq] at h
    have e : q.norm = r.norm := by simpa using h
    have hr : ∀ s, q.run s = r.run s := fun s => by rw [← run_norm q, e, run_norm]
    refine ⟨q, rfl, hr, fun s => by simp only [regexMatch, hr], fun n => ?_⟩
    induction n with
    | zero => intro s; rfl
    | succ n ih =>
      intro s
      simp only [searchAll, hr, ih]

end Rx

/-! Each regular expression of the model with the literal in the source. -/

open Rx

/-- metaf.hpp:3279-3280. -/
theorem source_Direction_sectorRgx :
    Writes (c!"([NSWE][WE]?)(?:-[NSWE]|-[NS][WE])*-([NSWE][WE]?)") Direction.sectorRgx := by
  decide +kernel

/-- metaf.hpp:3990. -/
theorem source_WeatherPhenomena_beginEndRgx :
    Writes (c!"((?:[A-Z][A-Z]){0,4})([BE])(\\d\\d)?(\\d\\d)") WeatherPhenomena.beginEndRgx := by
  decide +kernel

/-- metaf.hpp:4188. -/
theorem source_LocationGroup_rgx :
    Writes (c!"[A-Z][A-Z0-9]{3}") LocationGroup.rgx := by
  decide +kernel

/-- metaf.hpp:4212. -/
theorem source_ReportTimeGroup_rgx :
    Writes (c!"\\d\\d\\d\\d\\d\\dZ") ReportTimeGroup.rgx := by
  decide +kernel

/-- metaf.hpp:4287. -/
theorem source_TrendGroup_timeSpanRgx :
    Writes (c!"(\\d\\d\\d\\d)/(\\d\\d\\d\\d)") TrendGroup.timeSpanRgx := by
  decide +kernel

/-- metaf.hpp:4305. -/
theorem source_TrendGroup_timeSpanRgx2 :
    Writes (c!"(\\d\\d\\d\\d)/(\\d\\d\\d\\d)") TrendGroup.timeSpanRgx := by
  decide +kernel

/-- metaf.hpp:4323. -/
theorem source_TrendGroup_fmRgx :
    Writes (c!"FM\\d\\d\\d\\d\\d\\d") TrendGroup.fmRgx := by
  decide +kernel

/-- metaf.hpp:4337. -/
theorem source_TrendGroup_trendTimeRgx :
    Writes (c!"([FTA][MLT])(\\d\\d\\d\\d)") TrendGroup.trendTimeRgx := by
  decide +kernel

/-- metaf.hpp:4494-4495. -/
theorem source_WindGroup_windRgx :
    Writes (c!"(?:WS(\\d\\d\\d)/)?" ++
      c!"(\\d\\d0|VRB|///)([1-9]?\\d\\d|//)(?:G([1-9]?\\d\\d))?([KM][TMP][HS]?)") WindGroup.windRgx := by
  decide +kernel

/-- metaf.hpp:4586. -/
theorem source_WindGroup_varWindRgx :
    Writes (c!"(\\d\\d0)V(\\d\\d0)") WindGroup.varWindRgx := by
  decide +kernel

/-- metaf.hpp:4616. -/
theorem source_WindGroup_pkWndRgx :
    Writes (c!"(\\d\\d0)([1-9]?\\d\\d)/(\\d\\d)?(\\d\\d)") WindGroup.pkWndRgx := by
  decide +kernel

/-- metaf.hpp:4844. -/
theorem source_VisibilityGroup_metersRgx :
    Writes (c!"(\\d\\d\\d\\d|////)([NSWE][WED]?[V]?)?") VisibilityGroup.metersRgx := by
  decide +kernel

/-- metaf.hpp:4865-4866. -/
theorem source_VisibilityGroup_rvrRgx :
    Writes (c!"(R\\d\\d[RCL]?|R//)/(////|[PM]?\\d\\d\\d\\d)" ++
      c!"(?:V([PM]?\\d\\d\\d\\d))?(FT/?)?([UND/])?") VisibilityGroup.rvrRgx := by
  decide +kernel

/-- metaf.hpp:5013. -/
theorem source_VisibilityGroup_variableMetersRgx :
    Writes (c!"(\\d\\d\\d\\d)V(\\d\\d\\d\\d)") VisibilityGroup.variableMetersRgx := by
  decide +kernel

/-- metaf.hpp:5118-5119. -/
theorem source_CloudGroup_layerRgx :
    Writes (c!"([A-Z][A-Z][A-Z]?|///)(\\d\\d\\d|///)([CT][BC][U]?|///)?") CloudGroup.layerRgx := by
  decide +kernel

/-- metaf.hpp:5147. -/
theorem source_CloudGroup_variableLayerRgx :
    Writes (c!"([A-Z][A-Z][A-Z])(\\d\\d\\d)?") CloudGroup.variableLayerRgx := by
  decide +kernel

/-- metaf.hpp:5266. -/
theorem source_CloudGroup_ceilingRgx :
    Writes (c!"(\\d\\d\\d)V(\\d\\d\\d)") CloudGroup.ceilingRgx := by
  decide +kernel

/-- metaf.hpp:5291. -/
theorem source_CloudGroup_obscurationRgx :
    Writes (c!"([A-Z][A-Z][A-Z])(\\d\\d\\d)") CloudGroup.obscurationRgx := by
  decide +kernel

/-- metaf.hpp:5470. -/
theorem source_TemperatureGroup_rgx :
    Writes (c!"(M?\\d\\d|//)/(M?\\d\\d|//)?") TemperatureGroup.rgx := by
  decide +kernel

/-- metaf.hpp:5472. -/
theorem source_TemperatureGroup_rmkRgx :
    Writes (c!"T([01]\\d\\d\\d)([01]\\d\\d\\d)?") TemperatureGroup.rmkRgx := by
  decide +kernel

/-- metaf.hpp:5592-5595. -/
theorem source_RunwayStateGroup_rgx :
    Writes (c!"(R\\d\\d[RCL]?)/(?:" ++
      c!"(SNOCLO)|" ++
      c!"((\\d\\d)?D)|" ++
      c!"(?:([0-9/])([0-9/])(\\d\\d|//)|(CLRD))(\\d\\d|//))|") RunwayStateGroup.rgx := by
  decide +kernel

/-- metaf.hpp:5697. -/
theorem source_SeaSurfaceGroup_rgx :
    Writes (c!"W(\\d\\d|//)/([HS](?:\\d\\d?\\d?|///|/))") SeaSurfaceGroup.rgx := by
  decide +kernel

/-- metaf.hpp:5751. -/
theorem source_MinMaxTemperatureGroup_sixHourlyRgx :
    Writes (c!"([12])([01]\\d\\d\\d|////)") MinMaxTemperatureGroup.sixHourlyRgx := by
  decide +kernel

/-- metaf.hpp:5770. -/
theorem source_MinMaxTemperatureGroup_daily24Rgx :
    Writes (c!"4([01]\\d\\d\\d)([01]\\d\\d\\d)") MinMaxTemperatureGroup.daily24Rgx := by
  decide +kernel

/-- metaf.hpp:5789. -/
theorem source_MinMaxTemperatureGroup_forecastRgx :
    Writes (c!"T([XN])?(M?\\d\\d)/(\\d\\d\\d\\d)Z") MinMaxTemperatureGroup.forecastRgx := by
  decide +kernel

/-- metaf.hpp:5882-5883. -/
theorem source_PrecipitationGroup_rgx :
    Writes (c!"([P67])(\\d\\d\\d\\d|////)|(4/|93[13]|I[136]|PP)(\\d\\d\\d|///)") PrecipitationGroup.rgx := by
  decide +kernel

/-- metaf.hpp:5887-5888. -/
theorem source_PrecipitationGroup_rfRgx :
    Writes (c!"RF(\\d\\d\\.\\d|//\\./)/(\\d\\d\\d\\.\\d|///\\./)") PrecipitationGroup.rfRgx := by
  decide +kernel

/-- metaf.hpp:6045. -/
theorem source_LayerForecastGroup_rgx :
    Writes (c!"([65][\\dX])(\\d\\d\\d\\d|////)") LayerForecastGroup.rgx := by
  decide +kernel

/-- metaf.hpp:6141. -/
theorem source_PressureTendencyGroup_rgx :
    Writes (c!"5([\\d/])(\\d\\d\\d|///)") PressureTendencyGroup.rgx := by
  decide +kernel

/-- metaf.hpp:6181. -/
theorem source_CloudTypesGroup_matchRgx :
    Writes (c!"(?:(?:[A-Z]{2,4})[\\d])+") CloudTypesGroup.matchRgx := by
  decide +kernel

/-- metaf.hpp:6182. -/
theorem source_CloudTypesGroup_searchRgx :
    Writes (c!"[A-Z]{2,4}[\\d]") CloudTypesGroup.searchRgx := by
  decide +kernel

/-- metaf.hpp:6242. -/
theorem source_LowMidHighCloudGroup_rgx :
    Writes (c!"8/([0-9/])([0-9/])([0-9/])") LowMidHighCloudGroup.rgx := by
  decide +kernel

/-- metaf.hpp:6575. -/
theorem source_MiscGroup_sunshineRgx :
    Writes (c!"98(\\d\\d\\d)") MiscGroup.sunshineRgx := by
  decide +kernel

/-- metaf.hpp:6576. -/
theorem source_MiscGroup_correctionRgx :
    Writes (c!"CC([A-Z])") MiscGroup.correctionRgx := by
  decide +kernel

/-- metaf.hpp:6578. -/
theorem source_MiscGroup_issuerRgx :
    Writes (c!"F([NS])(\\d\\d\\d\\d\\d)") MiscGroup.issuerRgx := by
  decide +kernel

end Metaf

import Verif.Props.RemarkEnds
import Verif.Proofs.Remarks
import Verif.Proofs.Words

/-!
The parser on the words of remarks.
-/

set_option linter.unusedSectionVars false

namespace Metaf

/-! ### Texts with a space -/

namespace Rx

/-- The part of a text of the expression before a space is also a text of the expression. -/
def cuttable (r : Rx) : Bool :=
  avoids [(' ', ' ')] r || match r with
    | .seq a b => avoids [(' ', ' ')] a && cuttable b
    | .alt a b => cuttable a && cuttable b
    | r => r == .star .any

theorem avoids_space {r : Rx} {s : Str} (h : avoids [(' ', ' ')] r = true) (hl : Lang r s) : ' ' ∉ s := by
  obtain ⟨c, hm⟩ := hl
  intro hs
  exact absurd (avoids_match hm h ' ' hs) (by decide)

theorem cuttable_lang : ∀ {r : Rx} {u v : Str}, cuttable r = true → Lang r (u ++ ' ' :: v) → Lang r u := by
  intro r
  induction r with
  | seq a b _ ihb =>
    intro u v h hl
    rw [cuttable, Bool.or_eq_true] at h
    rcases h with h | h
    · exact absurd (by simp) (avoids_space h hl)
    · simp only [Bool.and_eq_true] at h
      obtain ⟨x, y, hx, hy, e⟩ := lang_seq.mp hl
      have hns := avoids_space h.1 hx
      rcases List.append_eq_append_iff.mp e with ⟨as, e1, e2⟩ | ⟨as, e1, e2⟩
      · cases as with
        | nil =>
          rw [List.append_nil] at e1
          subst e1
          exact lang_seq.mpr ⟨x, [], hx, ihb (v := v) h.2 (by rw [List.nil_append]; rw [List.nil_append] at e2; rw [e2]; exact hy), by simp⟩
        | cons c as =>
          obtain ⟨rfl, -⟩ := List.cons.inj e2
          exact absurd (by simp [e1]) hns
      · subst e1 e2
        exact lang_seq.mpr ⟨x, as, hx, ihb h.2 hy, rfl⟩
  | alt a b iha ihb =>
    intro u v h hl
    rw [cuttable, Bool.or_eq_true] at h
    rcases h with h | h
    · exact absurd (by simp) (avoids_space h hl)
    · simp only [Bool.and_eq_true] at h
      rcases lang_alt.mp hl with hl | hl
      · exact lang_alt.mpr (Or.inl (iha h.1 hl))
      · exact lang_alt.mpr (Or.inr (ihb h.2 hl))
  | _ =>
    intro u v h hl
    unfold cuttable at h
    rw [Bool.or_eq_true] at h
    rcases h with h | h
    · exact absurd (by simp) (avoids_space h hl)
    · simp only [beq_iff_eq] at h
      rw [h]
      exact lang_all u

end Rx

namespace Props

open Metaf.Spec

def remarkShapes : Bool := (List.range 21).all fun i => Rx.cuttable (shape i .RMK) &&
  (Rx.avoids [(' ', ' ')] (shape i .RMK) || (i != 6 && i != 19))

theorem remarkShapes_true : remarkShapes = true := by decide +kernel

variable [FloatIeee]

theorem unwords_cons (w v : Str) (ws : List Str) : unwords (w :: v :: ws) = w ++ ' ' :: unwords (v :: ws) := rfl

/-- The words of several texts are no group of another kind than the first word. -/
theorem several_words {w v : Str} {ws : List Str} {md md' : ReportMetadata} {i j : Nat} {g g' : Group}
    (h : recognise i w .RMK md = .ok (some g))
    (h' : recognise j (unwords (w :: v :: ws)) .RMK md' = .ok (some g')) : i = j := by
  obtain ⟨hi, hl⟩ := recognise_shape h
  obtain ⟨hj, hl'⟩ := recognise_shape h'
  rw [unwords_cons] at hl'
  have := List.all_eq_true.mp remarkShapes_true j (List.mem_range.mpr hj)
  simp only [Bool.and_eq_true, Bool.or_eq_true, bne_iff_ne] at this
  obtain ⟨h1, h2⟩ := this
  by_contra hne
  obtain ⟨-, h3⟩ := shape_apart hi hj hne hl (Rx.cuttable_lang h1 hl')
  rcases h2 with h2 | h2
  · exact Rx.avoids_space h2 hl' (by simp)
  · omega

theorem reads_first {p : ReportPart} {md : ReportMetadata} {ws : List Str} {g : Group} (h : Reads p md ws g) :
    ∃ w l x, ws = w :: l ∧ recognise g.index w p md = .ok (some x) := by
  induction h with
  | @first w i g h => exact ⟨w, [], g, rfl, by rw [GroupParser.recognise_index h]; exact h⟩
  | @more ws g g' w hr ha ih =>
    obtain ⟨v, l, x, rfl, hx⟩ := ih
    exact ⟨v, l ++ [w], x, rfl, by rw [Parser.append_index ha]; exact hx⟩

/-- The words of a remark are no remark of another kind. -/
theorem remark_reparse {md : ReportMetadata} {ws : List Str} {g g' : Group} (h : Reads .RMK md ws g)
    (hi : g'.index = g.index) (ha : ¬ ∃ w ∈ ambiguous, ws = [w]) :
    GroupParser.reparse (unwords ws) .RMK md g' = .ok (.unknown {}) := by
  obtain ⟨w, l, x, rfl, hx⟩ := reads_first h
  rw [← hi] at hx
  cases l with
  | nil =>
    exact C66_second_unknown w .RMK md g' x hx fun hw => ha ⟨w, hw.2, rfl⟩
  | cons v l =>
    obtain ⟨y, hy, -⟩ := GroupParser.reparse_ok (unwords (w :: v :: l)) .RMK md g'
    rcases (GroupParser.reparse_first hy).2 with ⟨h1, h2⟩ | rfl
    · exact absurd (several_words hx h1).symm h2
    · exact hy

/-! ### The end of the report -/

theorem windEmpty (x : WindGroup) (md : ReportMetadata) : (x.append [] md).2 ≠ .APPENDED := by
  have h1 : ∀ g : WindGroup, g.appendVariableSector [] = (g, .NOT_APPENDED) := fun _ => rfl
  have h2 : ∀ g : WindGroup, (g.appendWindShift [] md) = (g, .NOT_APPENDED) := by
    intro g
    unfold WindGroup.appendWindShift
    split
    · rename_i h; cases h
    split
    · rfl
    · cases md.reportTime <;> rfl
  have h3 : ∀ g : WindGroup, g.appendPeakWind [] md = (g, .GROUP_INVALIDATED) := fun _ => rfl
  have h4 : Runway.fromString [] true = none := rfl
  unfold WindGroup.append
  cases x.incompleteText <;> simp only [h1, h2, h3, h4]
  · cases x.windType <;> nofun
  all_goals nofun

theorem visibilityEmpty (x : VisibilityGroup) : (x.append []).2 ≠ .APPENDED := by
  have h1 : ∀ (g : VisibilityGroup), g.appendFractionToIncompleteInteger [] = none := fun _ => rfl
  have h2 : ∀ (g : VisibilityGroup) n, g.appendDirection [] n = none := fun _ _ => rfl
  have h3 : ∀ (g : VisibilityGroup) n, g.appendInteger [] n = none := fun _ _ => rfl
  have h4 : ∀ (g : VisibilityGroup) n, g.appendFraction [] n = none := fun _ _ => rfl
  have h5 : ∀ (g : VisibilityGroup) n m, g.appendVariable [] n m = none := fun _ _ _ => rfl
  have h6 : ∀ (g : VisibilityGroup) n, g.appendMeters [] n = none := fun _ _ => rfl
  have h7 : ∀ (g : VisibilityGroup) n, g.appendVariableMeters [] n = none := fun _ _ => rfl
  have h8 : ∀ (g : VisibilityGroup) n, g.appendRunway [] n = none := fun _ _ => rfl
  have h9 : ∀ (g : VisibilityGroup) n, g.appendVariableMaxFraction [] n = none := fun _ _ => rfl
  unfold VisibilityGroup.append
  cases x.incompleteText <;>
    simp only [VisibilityGroup.firstOf, h1, h2, h3, h4, h5, h6, h7, h8, h9] <;> nofun

theorem cloudEmpty (x : CloudGroup) : (x.append []).2 ≠ .APPENDED := by
  have h1 : ∀ g : CloudGroup, g.appendVariableCloudAmount [] = (g, .GROUP_INVALIDATED) := fun _ => rfl
  have h2 : ∀ g : CloudGroup, g.appendCeiling [] = (g, .GROUP_INVALIDATED) := fun _ => rfl
  have h3 : ∀ g : CloudGroup, g.appendObscuration [] = (g, .GROUP_INVALIDATED) := fun _ => rfl
  have h4 : ∀ g : CloudGroup, (g.appendRunwayOrCardinalDirection []).2 = .NOT_APPENDED := fun _ => rfl
  unfold CloudGroup.append
  cases x.incompleteText <;> simp only [h1, h2, h3, h4] <;> nofun

theorem vicinityEmpty (x : VicinityGroup) : (x.append []).2 ≠ .APPENDED := by
  have h1 : ∀ g : VicinityGroup, g.appendDistance [] = none := fun _ => rfl
  have h2 : ∀ g : VicinityGroup, g.appendDir1 [] = none := fun _ => rfl
  have h3 : ∀ g : VicinityGroup, g.appendDir2 [] = none := fun _ => rfl
  have h4 : Direction.fromCardinalString [] false true = none := rfl
  unfold VicinityGroup.append
  cases x.incompleteType <;> simp only [h1, h2, h3, h4] <;> nofun

theorem miscEmpty (x : MiscGroup) : (x.append []).2 ≠ .APPENDED := by
  have h1 : ∀ g : MiscGroup, g.appendHailstoneFraction [] = none := fun _ => rfl
  have h2 : ∀ g : MiscGroup, g.appendDensityAltitude [] = none := fun _ => rfl
  unfold MiscGroup.append
  cases x.incompleteText <;> simp only [h1, h2] <;> nofun

theorem lightningEmpty (x : LightningGroup) : (x.append []).2 ≠ .APPENDED := by
  have h1 : LightningGroup.fromLtgGroup [] = none := rfl
  have h2 : Direction.fromCardinalString [] true = none := rfl
  have h3 : Direction.fromSectorString [] = none := rfl
  unfold LightningGroup.append
  simp only [h1, h2, h3]
  repeat' split
  all_goals first | (intro e; cases e; done) | (rename_i h; cases h)

theorem weatherEmpty (x : WeatherGroup) (p : ReportPart) : (x.append [] p).2 ≠ .APPENDED := by
  have h1 : WeatherGroup.parseWeatherWithoutEvent [] p = none := by cases p <;> rfl
  unfold WeatherGroup.append
  cases x.incompleteText <;> simp only [h1]
  · split <;> nofun
  all_goals nofun

theorem trendEmpty (x : TrendGroup) (p : ReportPart) : (x.append [] p).2 ≠ .APPENDED := by
  have h1 : TrendGroup.parse [] p = none := by cases p <;> rfl
  unfold TrendGroup.append
  simp only [h1]
  split <;> nofun

theorem minMaxEmpty (x y : MinMaxTemperatureGroup) : x.append [] ≠ .ok (y, .APPENDED) := by
  have h1 : MinMaxTemperatureGroup.from6hourly [] = none := rfl
  have h2 : MinMaxTemperatureGroup.fromForecast [] = none := rfl
  unfold MinMaxTemperatureGroup.append MinMaxTemperatureGroup.append6hourly MinMaxTemperatureGroup.appendForecast
  cases x.t <;> simp only [h1, h2]
  · split <;> nofun
  · nofun
  · split <;> nofun

/-- No group takes an empty text. -/
theorem empty_not_taken {g g' : Group} {p : ReportPart} {md : ReportMetadata} (hk : g.isFallback = false) :
    g.append [] p md ≠ .ok (g', .APPENDED) := by
  intro h
  cases g with
  | unknown x => cases hk
  | minMaxTemperature x =>
    simp only [Group.append] at h
    split at h
    · cases h
    · rename_i r hr
      obtain ⟨-, h2⟩ := Prod.mk.inj (Except.ok.inj h)
      exact minMaxEmpty x r.1 (by rw [hr, ← h2])
  | cloudTypes x =>
    simp only [Group.append] at h
    split at h
    · cases h
    · rename_i r hr
      have h1 : CloudType.fromString [] = none := rfl
      simp only [CloudTypesGroup.append, h1] at hr
      repeat' split at hr
      all_goals cases hr <;> cases h
  | _ =>
    simp only [Group.append, Except.ok.injEq, Prod.mk.injEq] at h
    first
      | exact windEmpty _ _ h.2
      | exact visibilityEmpty _ h.2
      | exact cloudEmpty _ h.2
      | exact vicinityEmpty _ h.2
      | exact miscEmpty _ h.2
      | exact lightningEmpty _ h.2
      | exact weatherEmpty _ _ h.2
      | exact trendEmpty _ _ h.2
      | (cases h.2; done)
      | (obtain ⟨-, h⟩ := h
         simp only [TemperatureGroup.append, PressureGroup.append, PrecipitationGroup.append,
           show Precipitation.fromSnincrString [] = none from rfl] at h
         repeat' split at h
         all_goals first | (cases h; done) | (rename_i e; exact e (by decide)))

theorem reads_known {p : ReportPart} {md : ReportMetadata} {ws : List Str} {g : Group} (h : Reads p md ws g) :
    g.isFallback = false := by
  obtain ⟨w, l, x, -, hx⟩ := reads_first h
  have := (recognise_shape hx).1
  cases g with
  | unknown u => simp [Group.index] at this
  | _ => rfl

/-! ### The last group and the next word -/

/-- A lone ambiguous word is held as an obscuration. -/
def Held (md : ReportMetadata) (ws : List Str) (x : Group) : Prop :=
  Reads .RMK md ws x ∧ ((∃ w ∈ ambiguous, ws = [w]) → x.index = 6)

theorem ambiguous_index {md : ReportMetadata} {w : Str} {g : Group} (hw : w ∈ ambiguous)
    (h : recognise g.index w .RMK md = .ok (some g)) : g.index = 6 ∨ g.index = 19 := by
  obtain ⟨⟨x, hx⟩, -⟩ := C66_ambiguous w md hw
  rcases C66_one_kind _ _ _ _ _ _ _ _ h hx with e | ⟨-, -, ⟨e, -⟩ | ⟨e, -⟩⟩
  · exact Or.inl e
  · exact Or.inl e
  · exact Or.inr e

theorem same_kind {md : ReportMetadata} {w : Str} {g g' : Group} {i : Nat}
    (h : recognise i w .RMK md = .ok (some g)) (h' : recognise i w .RMK md = .ok (some g')) : g = g' := by
  rw [h] at h'
  exact Option.some.inj (Except.ok.inj h')

/-- The other reading of an ambiguous word. -/
theorem reparse_ambiguous {md : ReportMetadata} {w : Str} {g x y : Group} (hg : g.index = 6)
    (hx : recognise 6 w .RMK md = .ok (some x)) (hy : recognise 19 w .RMK md = .ok (some y)) :
    GroupParser.reparse w .RMK md g = .ok y :=
  (C66_second_try w .RMK md g x y (by rw [hg]; exact hx)).mpr (Or.inl ⟨19, by omega, hy⟩)

theorem append_held {md : ReportMetadata} {ws : List Str} {x g : Group} {w : Str} {G : List GroupInfo}
    (hx : Held md ws x) (h : Reads .RMK md (ws ++ [w]) g) :
    Parser.appendToLastResultGroup (⟨x, .RMK, unwords ws⟩ :: G) w .RMK md =
      .ok (⟨g, .RMK, unwords (ws ++ [w])⟩ :: G, true) := by
  obtain ⟨hr, ha⟩ := hx
  rw [unwords_snoc ws w hr.ne_nil]
  obtain ⟨g1, h1, happ⟩ := reads_snoc h hr.ne_nil
  have direct : g1 = x → Parser.appendToLastResultGroup (⟨x, .RMK, unwords ws⟩ :: G) w .RMK md =
      .ok (⟨g, .RMK, unwords ws ++ c!" " ++ w⟩ :: G, true) := by
    rintro rfl
    simp only [Parser.appendToLastResultGroup, reads_known hr, Bool.false_eq_true, if_false, happ]
  rcases remark_unique hr h1 with e | ⟨a, hw, rfl⟩
  · exact direct e.symm
  have hi := ha ⟨a, hw, rfl⟩
  have hxr := reads_single hr
  have h1r := reads_single h1
  rw [hi] at hxr
  rcases ambiguous_index hw h1r with e | e
  · rw [e] at h1r
    exact direct (same_kind h1r hxr)
  · rw [e] at h1r
    rcases remark_cases hr w with ⟨g', h2⟩ | ⟨g', h2, -, h3⟩ | ⟨-, h3⟩
    · exact (ambiguous_apart hw hxr h1r h2 happ).elim
    · have hre := reparse_ambiguous (h3.trans hi) hxr h1r
      have hk := reads_known h1
      simp only [Parser.appendToLastResultGroup, reads_known hr, Bool.false_eq_true, if_false, h2, unwords, hre,
        hk, Parser.addGroup_not_fallback hk, Parser.appendNoReparse, happ]
    · exact absurd (ambiguous_lacking hw) h3

/-- No remark begins with these words and the next one. -/
def Stopped (now : Option Nat) (ws rest : List Str) : Prop :=
  ∀ w, rest.head? = some w → ∀ g, ¬ Remark now (ws ++ [w]) g

theorem stopped_append {md : ReportMetadata} {ws rest : List Str} {g g' : Group}
    (hs : Stopped (reportHour md) ws rest) (h : Reads .RMK md ws g) :
    g.append (rest.headD []) .RMK md ≠ .ok (g', .APPENDED) := by
  intro ha
  cases rest with
  | nil => exact empty_not_taken (reads_known h) ha
  | cons w rest => exact hs w rfl g' (reads_remark (.more h ha))

theorem append_settled {md : ReportMetadata} {ws rest : List Str} {x : Group} {G : List GroupInfo}
    (hx : Reads .RMK md ws x) (hs : Stopped (reportHour md) ws rest) (hl : ¬ Lacking (rest.headD []) ws) :
    Parser.appendToLastResultGroup (⟨x, .RMK, unwords ws⟩ :: G) (rest.headD []) .RMK md =
      .ok (⟨settled x, .RMK, unwords ws⟩ :: G, false) := by
  rcases remark_cases hx (rest.headD []) with ⟨g', h2⟩ | ⟨g', -, h3, -⟩ | ⟨h2, -⟩
  · exact (stopped_append hs hx h2).elim
  · exact absurd h3 hl
  · simp only [Parser.appendToLastResultGroup, reads_known hx, Bool.false_eq_true, if_false, h2]

theorem append_lacking {md : ReportMetadata} {ws rest : List Str} {x : Group} {G : List GroupInfo}
    (hx : Reads .RMK md ws x) (hs : Stopped (reportHour md) ws rest) (hl : Lacking (rest.headD []) ws)
    (ha : ¬ ∃ w ∈ ambiguous, ws = [w]) :
    Parser.appendToLastResultGroup (⟨x, .RMK, unwords ws⟩ :: G) (rest.headD []) .RMK md =
      .ok (Parser.addGroupToResult G (.unknown {}) .RMK (unwords ws), false) := by
  rcases remark_cases hx (rest.headD []) with ⟨g', h2⟩ | ⟨g', h2, -, h3⟩ | ⟨-, h2⟩
  · exact (stopped_append hs hx h2).elim
  · simp only [Parser.appendToLastResultGroup, reads_known hx, Bool.false_eq_true, if_false, h2,
      remark_reparse hx h3 ha]
    rfl
  · exact absurd hl h2

theorem append_ambiguous {md : ReportMetadata} {w : Str} {rest : List Str} {x : Group} {y : VicinityGroup}
    {G : List GroupInfo} (hw : w ∈ ambiguous)
    (hx : Held md [w] x) (hy : Reads .RMK md [w] (.vicinity y)) (hs : Stopped (reportHour md) [w] rest) :
    Parser.appendToLastResultGroup (⟨x, .RMK, w⟩ :: G) (rest.headD []) .RMK md =
      .ok (⟨.unknown {}, .RMK, w⟩ :: ⟨.vicinity y, .RMK, []⟩ :: G, false) := by
  have hi := hx.2 ⟨w, hw, rfl⟩
  have hxr := reads_single hx.1
  have hyr := reads_single hy
  rw [hi] at hxr
  rcases remark_cases hx.1 (rest.headD []) with ⟨g', h2⟩ | ⟨g', h2, -, h3⟩ | ⟨-, h2⟩
  · exact (stopped_append hs hx.1 h2).elim
  · have hre := reparse_ambiguous (h3.trans hi) hxr hyr
    have hk := reads_known hy
    rcases remark_cases hy (rest.headD []) with ⟨g'', k2⟩ | ⟨g'', k2, -, k3⟩ | ⟨-, k2⟩
    · exact (stopped_append hs hy k2).elim
    · have e : g'' = .vicinity y := by
        cases reads_remark hy with
        | vicinity ht =>
          simp only [Group.append, Except.ok.injEq, Prod.mk.injEq] at k2
          rcases C61_rejected _ _ _ _ ht (rest.headD []) (by rw [k2.2]; nofun) with ⟨-, e, -⟩ | ⟨e, -⟩
          · rw [← k2.1, e]
          · rw [k2.2] at e; cases e
        | fixed h => simp [fixedWords] at h
        | missing h => simp [missingWords] at h
      subst e
      simp only [Parser.appendToLastResultGroup, reads_known hx.1, Bool.false_eq_true, if_false, h2, hre,
        hk, Parser.addGroup_not_fallback hk, Parser.appendNoReparse, k2]
      simp only [Parser.addGroupToResult, hk, Bool.and_false, Bool.false_eq_true, if_false]
    · exact absurd (ambiguous_lacking hw) k2
  · exact absurd (ambiguous_lacking hw) h2

/-! ### Steps of the parser -/

theorem remark_hour {w : Str} {md : ReportMetadata} {g : Group} (h : GroupParser.parse w .RMK md = .ok g) :
    reportHour (Parser.updateMetadata g md) = reportHour md := by
  cases g with
  | reportTime t =>
    rcases (GroupParser.parse_first h).2 with h2 | h2
    · obtain ⟨t', ht, -⟩ := map_some h2
      cases ht
    · cases h2
  | keyword k =>
    obtain ⟨k⟩ := k
    cases k <;> rfl
  | misc m =>
    simp only [Parser.updateMetadata]
    split
    · split <;> rfl
    · rfl
  | trend t =>
    simp only [Parser.updateMetadata]
    split <;> rfl
  | _ => rfl

/-- A word of the remarks which the last group does not take. -/
theorem remark_step_new {limit : Nat} {ty : ReportType} {v : Parser.Vars} {w : Str} {gs : List GroupInfo} {g : Group}
    (hb : Parser.InRemarks ty v.status) (hl : v.groupCount + 1 < limit)
    (ha : Parser.appendToLastResultGroup v.groups w .RMK v.md = .ok (gs, false))
    (hg : GroupParser.parse w .RMK v.md = .ok g) (hw : ty = .TAF → w ≠ c!"$") :
    ∃ v', Parser.stepTok limit w v = .ok v' ∧ Parser.InRemarks ty v'.status ∧
      reportHour v'.md = reportHour v.md ∧
      v'.groups = Parser.addGroupToResult gs g .RMK w ∧ v'.groupCount = v.groupCount + 1 := by
  have ht : v.status.transition (getSyntaxGroup g) = v.status :=
    hb.transition fun h => Parser.remark_syntax (hw h) hg
  have hlt : ¬ (v.groupCount + 1 ≥ limit) := by omega
  have hnr : v.status.isReparseRequired = false := by
    obtain ⟨-, -, ⟨-, h⟩ | ⟨-, h⟩⟩ := hb <;> simp [Status.isReparseRequired, h]
  refine ⟨{ status := v.status, md := Parser.updateMetadata g v.md, groups := Parser.addGroupToResult gs g .RMK w,
            groupCount := v.groupCount + 1 }, ?_, hb, remark_hour hg, rfl, rfl⟩
  simp only [Parser.stepTok, Parser.step, hb.part, ha, Parser.parseGroup, hg, Parser.countGroup, if_neg hlt, ht,
    hnr, Bool.false_and, Bool.false_eq_true, if_false]

/-- A word of the remarks which the last group takes. -/
theorem remark_step_taken {limit : Nat} {ty : ReportType} {v : Parser.Vars} {w : Str} {gs : List GroupInfo}
    (hb : Parser.InRemarks ty v.status) (hl : v.groupCount + 1 < limit)
    (ha : Parser.appendToLastResultGroup v.groups w .RMK v.md = .ok (gs, true)) :
    Parser.stepTok limit w v = .ok { v with groups := gs, groupCount := v.groupCount + 1 } := by
  have hlt : ¬ (v.groupCount + 1 ≥ limit) := by omega
  simp only [Parser.stepTok, Parser.step, hb.part, ha, Parser.countGroup, if_neg hlt]

/-- An ambiguous word is also an obscuration. -/
theorem held_exists {now : Option Nat} {ws : List Str} {g : Group} (h : Remark now ws g) :
    ∃ x, Remark now ws x ∧ ((∃ w ∈ ambiguous, ws = [w]) → x.index = 6) := by
  by_cases ha : ∃ w ∈ ambiguous, ws = [w]
  · obtain ⟨w, hw, rfl⟩ := ha
    have e : reportHour { reportTime := now.map fun h => { hourValue := h } } = now := by cases now <;> rfl
    obtain ⟨⟨x, hx⟩, -⟩ := C66_ambiguous w { reportTime := now.map fun h => { hourValue := h } } hw
    refine ⟨x, e ▸ reads_remark (.first hx), fun _ => GroupParser.recognise_index hx⟩
  · exact ⟨g, h, fun h => absurd h ha⟩

/-- The parser on the words of one remark. -/
theorem fold_remark {limit : Nat} {ty : ReportType} {now : Option Nat} (ws : List Str) :
    ∀ {g : Group} {v : Parser.Vars} {G : List GroupInfo}, Remark now ws g →
    ((∃ w ∈ ambiguous, ws = [w]) → g.index = 6) → Parser.InRemarks ty v.status → reportHour v.md = now →
    v.groupCount + ws.length < limit → (ty = .TAF → c!"$" ∉ ws) →
    Parser.appendToLastResultGroup v.groups (ws.headD []) .RMK v.md = .ok (G, false) →
    ∃ v', Parser.foldTokens limit ws v = .ok v' ∧ Parser.InRemarks ty v'.status ∧ reportHour v'.md = now ∧
      v'.groups = ⟨g, .RMK, unwords ws⟩ :: G ∧ v'.groupCount = v.groupCount + ws.length := by
  induction ws using List.reverseRecOn with
  | nil =>
    intro g v G h _ _ hn
    subst hn
    exact absurd rfl (remark_reads h).ne_nil
  | append_singleton ws w ih =>
    intro g v G h hx hb hn hl hd ha
    rw [List.length_append] at hl
    simp only [List.length_cons, List.length_nil] at hl
    have hr : Reads .RMK v.md (ws ++ [w]) g := remark_reads (md := v.md) (by rw [← hn] at h; exact h)
    by_cases hne : ws = []
    · subst hne
      have hs := reads_single hr
      have hg : GroupParser.parse w .RMK v.md = .ok g := by
        refine C66_order_free w .RMK v.md _ g hs fun h => ?_
        have := hx ⟨w, h.2.2, rfl⟩
        omega
      obtain ⟨v', h1, h2, h3, h4, h5⟩ := remark_step_new (limit := limit) hb (by omega) ha hg
        (fun ht e => hd ht (by simp only [List.nil_append, List.headD_cons] at e; simp [e]))
      refine ⟨v', ?_, h2, h3.trans hn, ?_, by simpa using h5⟩
      · simp only [List.nil_append, Parser.foldTokens, hb.noError, Bool.false_eq_true, if_false]
        simp only [List.nil_append, List.headD_cons] at h1
        rw [h1]
      · rw [h4, Parser.addGroup_not_fallback (reads_known hr)]
        rfl
    · obtain ⟨g0, h0, -⟩ := reads_snoc hr hne
      have hr0 : Remark now ws g0 := by rw [← hn]; exact reads_remark h0
      obtain ⟨x, k1, k2⟩ := held_exists hr0
      rw [Parser.headD_append hne] at ha
      obtain ⟨v', h1, h2, h3, h4, h5⟩ := ih k1 k2 hb hn (by omega) (fun ht hm => hd ht (by simp [hm])) ha
      have hx' : Held v'.md ws x := ⟨remark_reads (md := v'.md) (by rw [← h3] at k1; exact k1), k2⟩
      have hr' : Reads .RMK v'.md (ws ++ [w]) g := remark_reads (md := v'.md) (by rw [← h3] at h; exact h)
      have hap := append_held (G := G) hx' hr'
      rw [← h4] at hap
      have hst := remark_step_taken (limit := limit) h2 (by omega) hap
      refine ⟨{ v' with groups := ⟨g, .RMK, unwords (ws ++ [w])⟩ :: G, groupCount := v'.groupCount + 1 },
        ?_, h2, h3, rfl, ?_⟩
      · rw [Parser.foldTokens_append, h1]
        simp only [Parser.foldTokens, h2.noError, Bool.false_eq_true, if_false, hst]
      · simp only [List.length_append, List.length_cons, List.length_nil, h5]
        omega

end Props

end Metaf

import Verif.Proofs.Reading
import Verif.Proofs.ParserKeyword

/-!
The parser divides the body of a report as described by `Spec.Cut`.
-/

set_option linter.unusedSectionVars false

namespace Metaf

open Spec

variable [FloatSem]

theorem unwords_snoc : ∀ (ws : List Str) (w : Str), ws ≠ [] → unwords (ws ++ [w]) = unwords ws ++ c!" " ++ w
  | [], _, h => absurd rfl h
  | [a], w, _ => by simp [unwords]
  | a :: b :: ws, w, _ => by
    have := unwords_snoc (b :: ws) w (by simp)
    simp only [List.cons_append, unwords] at this ⊢
    rw [this]
    simp

theorem Spec.Reads.ne_nil {p : ReportPart} {md : ReportMetadata} {ws : List Str} {g : Group}
    (h : Reads p md ws g) : ws ≠ [] := by
  cases h <;> simp

/-- What a group that waits for more has been made of. -/
theorem Spec.Reads.waits {p : ReportPart} (hp : isBody p) {md : ReportMetadata} {ws : List Str} {g : Group}
    (h : Reads p md ws g) : Plain p g ∧
      (∀ x, g = .wind x → (x.incompleteText = .WS → ws = [c!"WS"]) ∧
        (x.incompleteText = .WS_ALL → ws = [c!"WS", c!"ALL"])) ∧
      (∀ x, g = .visibility x → x.incompleteText = .INTEGER → ∃ w, ws = [w] ∧ Unfinished [w]) := by
  induction h with
  | @first w i g h =>
    refine ⟨recognise_plain hp h, ?_, ?_⟩
    · rintro x rfl
      obtain rfl : 4 = i := GroupParser.recognise_index h
      obtain ⟨y, hy, e⟩ := map_some h
      cases e
      obtain ⟨-, h2 | ⟨h2, rfl⟩⟩ := windPlain hp hy
      · exact ⟨fun h => (by rw [h2] at h; cases h), fun h => (by rw [h2] at h; cases h)⟩
      · exact ⟨fun _ => rfl, fun h => (by rw [h2] at h; cases h)⟩
    · rintro x rfl hx
      obtain rfl : 5 = i := GroupParser.recognise_index h
      obtain ⟨y, hy, e⟩ := map_some h
      cases e
      rcases visibilityPlain hp hy with h2 | ⟨-, h2⟩
      · rw [h2] at hx; cases hx
      · exact ⟨w, rfl, h2⟩
  | @more ws g g' w hr ha ih =>
    obtain ⟨ih1, ih2, ih3⟩ := ih
    refine ⟨plain_append hp ih1 ha, ?_, ?_⟩
    · rintro x rfl
      cases g with
      | wind y =>
        simp only [Group.append, Except.ok.injEq, Prod.mk.injEq, Group.wind.injEq] at ha
        obtain ⟨rfl, ha⟩ := ha
        obtain ⟨ht, hi⟩ := ih1
        obtain ⟨k1, k2⟩ := ih2 y rfl
        simp only [WindGroup.append] at ha ⊢
        rcases hi with hi | hi | hi
        · rw [hi] at ha ⊢
          cases hwt : y.windType with
          | WIND_SHIFT => exact absurd hwt ht
          | SURFACE_WIND =>
            simp only [hwt, WindGroup.appendVariableSector] at ha ⊢
            split at ha
            · constructor <;> (intro h; rw [show _ = WindIncomplete.NONE from hi] at h; cases h)
            · cases ha
          | _ => simp only [hwt] at ha; cases ha
        · rw [hi] at ha ⊢
          simp only at ha ⊢
          by_cases hs : w = c!"ALL"
          · rw [if_pos hs]
            refine ⟨nofun, fun _ => ?_⟩
            rw [k1 hi, hs]
            rfl
          · rw [if_neg hs] at ha ⊢
            split at ha
            · constructor <;> (intro h; cases h)
            · cases ha
        · rw [hi] at ha ⊢
          simp only at ha ⊢
          by_cases hs : w ≠ c!"RWY"
          · rw [if_pos hs] at ha; cases ha
          · rw [if_neg hs]
            constructor <;> (intro h; cases h)
      | minMaxTemperature y =>
        simp only [Group.append] at ha
        split at ha <;> cases ha
      | cloudTypes y => exact ih1.elim
      | _ => cases ha
    · rintro x rfl hx
      cases g with
      | visibility y =>
        simp only [Group.append, Except.ok.injEq, Prod.mk.injEq, Group.visibility.injEq] at ha
        obtain ⟨rfl, ha⟩ := ha
        exfalso
        simp only [VisibilityGroup.append] at ha hx
        rcases ih1 with hi | hi
        · rw [hi] at ha; cases ha
        · rw [hi] at ha hx
          simp only [VisibilityGroup.firstOf] at ha hx
          cases hf : VisibilityGroup.appendFractionToIncompleteInteger y w with
          | none => simp only [hf] at ha; cases ha
          | some z =>
            simp only [hf] at hx
            unfold VisibilityGroup.appendFractionToIncompleteInteger at hf
            split at hf
            · cases hf
            · split at hf
              · cases hf
              · obtain rfl := Option.some.inj hf
                cases hx
      | minMaxTemperature y =>
        simp only [Group.append] at ha
        split at ha <;> cases ha
      | cloudTypes y => exact ih1.elim
      | _ => cases ha

theorem Spec.Reads.plain {p : ReportPart} (hp : isBody p) {md : ReportMetadata} {ws : List Str} {g : Group}
    (h : Reads p md ws g) : Plain p g := (h.waits hp).1

theorem Spec.Reads.unfinished {p : ReportPart} (hp : isBody p) {md : ReportMetadata} {ws : List Str} {g : Group}
    (h : Reads p md ws g) (hw : Waits g) : Unfinished ws := by
  obtain ⟨h1, h2, h3⟩ := h.waits hp
  cases g with
  | wind x =>
    obtain ⟨-, hi | hi | hi⟩ := h1
    · exact absurd hi hw
    · rw [(h2 x rfl).1 hi]; exact .shear
    · rw [(h2 x rfl).2 hi]; exact .shearAll
  | visibility x =>
    rcases h1 with hi | hi
    · exact absurd hi hw
    · obtain ⟨w, rfl, hu⟩ := h3 x rfl hi
      exact hu
  | _ => exact hw.elim

/-- A group in the body takes the next word, leaves it, or was waiting for something else. -/
theorem plain_outcome {p : ReportPart} {md : ReportMetadata} {g g' : Group} {s : Str}
    {r : AppendResult} (hg : Plain p g) (h : g.append s p md = .ok (g', r))
    (hr : r = .GROUP_INVALIDATED) : g' = g ∧ Waits g := by
  subst hr
  cases g with
  | keyword x => cases h
  | location x => cases h
  | reportTime x => cases h
  | trend x =>
    simp only [Group.append, Except.ok.injEq, Prod.mk.injEq] at h
    obtain ⟨rfl, h⟩ := h
    exfalso
    unfold TrendGroup.append at h
    repeat' split at h
    all_goals cases h
  | wind x =>
    simp only [Group.append, Except.ok.injEq, Prod.mk.injEq] at h
    obtain ⟨rfl, h⟩ := h
    obtain ⟨ht, hi⟩ := hg
    simp only [WindGroup.append] at h ⊢
    rcases hi with hi | hi | hi
    · rw [hi] at h ⊢
      cases hwt : x.windType with
      | WIND_SHIFT => exact absurd hwt ht
      | SURFACE_WIND =>
        simp only [hwt, WindGroup.appendVariableSector] at h ⊢
        split at h <;> cases h
      | _ => simp only [hwt] at h; cases h
    · rw [hi] at h ⊢
      simp only at h ⊢
      by_cases ha : s = c!"ALL"
      · rw [if_pos ha] at h; cases h
      · rw [if_neg ha] at h ⊢
        split at h
        · cases h
        · rename_i hr
          simp only
          exact ⟨trivial, by simp [Waits, hi]⟩
    · rw [hi] at h ⊢
      simp only at h ⊢
      by_cases ha : s ≠ c!"RWY"
      · rw [if_pos ha]
        exact ⟨rfl, by simp [Waits, hi]⟩
      · rw [if_neg ha] at h; cases h
  | visibility x =>
    simp only [Group.append, Except.ok.injEq, Prod.mk.injEq] at h
    obtain ⟨rfl, h⟩ := h
    simp only [VisibilityGroup.append] at h ⊢
    rcases hg with hi | hi
    · rw [hi] at h; cases h
    · rw [hi] at h ⊢
      simp only [VisibilityGroup.firstOf] at h ⊢
      cases hf : VisibilityGroup.appendFractionToIncompleteInteger x s with
      | none => exact ⟨rfl, by simp [Waits, hi]⟩
      | some y => simp only [hf] at h; cases h
  | cloud x =>
    have hn : x.incompleteText = .NONE := hg
    simp only [Group.append, CloudGroup.append, hn] at h
    cases h
  | weather x =>
    have hn : x.incompleteText = .NONE := hg
    simp only [Group.append, Except.ok.injEq, Prod.mk.injEq] at h
    obtain ⟨rfl, h⟩ := h
    exfalso
    simp only [WeatherGroup.append, hn] at h
    repeat' split at h
    all_goals cases h
  | temperature x =>
    have hn : x.isIncomplete = false := hg
    simp only [Group.append, TemperatureGroup.append, hn, Bool.false_and, Bool.false_eq_true, if_false] at h
    cases h
  | pressure x =>
    have hn : x.isIncomplete = false := hg
    simp only [Group.append, PressureGroup.append, hn, Bool.false_and, Bool.false_eq_true, if_false] at h
    cases h
  | runwayState x => cases h
  | seaSurface x => cases h
  | minMaxTemperature x =>
    obtain ⟨ht, rfl, hinv, -⟩ := hg
    exfalso
    simp only [Group.append, MinMaxTemperatureGroup.append, ht] at h
    split at h
    · cases h
    · rename_i y hy
      simp only [Except.ok.injEq, Prod.mk.injEq] at h
      have h := h.2
      simp only [MinMaxTemperatureGroup.appendForecast] at hy
      repeat' split at hy
      all_goals first
        | (cases hy; done)
        | (rw [← Except.ok.inj hy] at h; cases h)
  | precipitation x =>
    have hn : x.precType = .RAINFALL_9AM_10MIN := hg
    simp [Group.append, PrecipitationGroup.append, hn] at h
  | layerForecast x => cases h
  | misc x =>
    have hn : x.incompleteText = .NONE := hg
    simp only [Group.append, MiscGroup.append, hn] at h
    cases h
  | _ => exact hg.elim

/-- A group in the body which does not take a word is not changed by it. -/
theorem plain_unchanged {p : ReportPart} {md : ReportMetadata} {g g' : Group} {s : Str}
    (hg : Plain p g) (h : g.append s p md = .ok (g', .NOT_APPENDED)) : g' = g := by
  cases g with
  | keyword x => cases h; rfl
  | location x => cases h; rfl
  | reportTime x => cases h; rfl
  | trend x =>
    simp only [Group.append, Except.ok.injEq, Prod.mk.injEq] at h
    obtain ⟨rfl, h⟩ := h
    unfold TrendGroup.append at h ⊢
    repeat' split at h
    all_goals first
      | (cases h; done)
      | simp_all
  | wind x =>
    simp only [Group.append, Except.ok.injEq, Prod.mk.injEq] at h
    obtain ⟨rfl, h⟩ := h
    obtain ⟨ht, hi⟩ := hg
    simp only [WindGroup.append] at h ⊢
    rcases hi with hi | hi | hi
    · rw [hi] at h ⊢
      cases hwt : x.windType with
      | WIND_SHIFT => exact absurd hwt ht
      | SURFACE_WIND =>
        simp only [hwt, WindGroup.appendVariableSector] at h ⊢
        split at h
        · cases h
        · rfl
      | _ => rfl
    · rw [hi] at h ⊢
      simp only at h ⊢
      by_cases ha : s = c!"ALL"
      · rw [if_pos ha] at h; cases h
      · rw [if_neg ha] at h ⊢
        split at h <;> cases h
    · rw [hi] at h ⊢
      simp only at h ⊢
      by_cases ha : s ≠ c!"RWY"
      · rw [if_pos ha] at h; cases h
      · rw [if_neg ha] at h; cases h
  | visibility x =>
    simp only [Group.append, Except.ok.injEq, Prod.mk.injEq] at h
    obtain ⟨rfl, h⟩ := h
    simp only [VisibilityGroup.append] at h ⊢
    rcases hg with hi | hi
    · rw [hi]
    · rw [hi] at h ⊢
      simp only [VisibilityGroup.firstOf] at h ⊢
      cases hf : VisibilityGroup.appendFractionToIncompleteInteger x s with
      | none => simp only [hf] at h; cases h
      | some y => simp only [hf] at h; cases h
  | cloud x =>
    have hn : x.incompleteText = .NONE := hg
    simp only [Group.append, CloudGroup.append, hn] at h
    cases h; rfl
  | weather x =>
    have hn : x.incompleteText = .NONE := hg
    simp only [Group.append, Except.ok.injEq, Prod.mk.injEq] at h
    obtain ⟨rfl, h⟩ := h
    simp only [WeatherGroup.append, hn] at h ⊢
    repeat' split at h
    all_goals first
      | (cases h; done)
      | simp_all
  | temperature x =>
    have hn : x.isIncomplete = false := hg
    simp only [Group.append, TemperatureGroup.append, hn, Bool.false_and, Bool.false_eq_true, if_false] at h
    cases h; rfl
  | pressure x =>
    have hn : x.isIncomplete = false := hg
    simp only [Group.append, PressureGroup.append, hn, Bool.false_and, Bool.false_eq_true, if_false] at h
    cases h; rfl
  | runwayState x => cases h; rfl
  | seaSurface x => cases h; rfl
  | minMaxTemperature x =>
    obtain ⟨ht, rfl, hinv, hrep⟩ := hg
    simp only [Group.append, MinMaxTemperatureGroup.append, ht] at h
    split at h
    · cases h
    · rename_i y hy
      simp only [Except.ok.injEq, Prod.mk.injEq] at h
      rw [← h.1, (appendForecast_reported hinv hrep hy).2 h.2]
  | precipitation x =>
    have hn : x.precType = .RAINFALL_9AM_10MIN := hg
    simp [Group.append, PrecipitationGroup.append, hn] at h
    exact h.symm
  | layerForecast x => cases h; rfl
  | misc x =>
    have hn : x.incompleteText = .NONE := hg
    simp only [Group.append, MiscGroup.append, hn] at h
    cases h; rfl
  | _ => exact hg.elim

theorem wsAll_unknown (p : ReportPart) (md : ReportMetadata) (i : Nat) (g : Group) :
    recognise i c!"WS ALL" p md ≠ .ok (some g) := by
  intro h
  obtain ⟨hi, hl⟩ := Props.recognise_shape h
  have hc : (Props.parts.all fun p => (List.range 21).all fun i =>
      Rx.apart 12 (Props.shape i p) (.lits [c!"WS ALL"])) = true := by decide +kernel
  have hp : p ∈ Props.parts := by cases p <;> decide
  have := List.all_eq_true.mp (List.all_eq_true.mp hc p hp) i (List.mem_range.mpr hi)
  exact Rx.apart_sound _ _ _ this _ hl ((Rx.lang_lits _).mpr (by simp))

/-- Words which turn out not to be what they seemed are not recognised in any other way. -/
theorem reparse_unknown {p : ReportPart} (hp : isBody p) {md md' : ReportMetadata} {ws : List Str} {g : Group}
    (h : Reads p md ws g) (hw : Waits g) : GroupParser.reparse (unwords ws) p md' g = .ok (.unknown {}) := by
  obtain ⟨x, hx, -⟩ := GroupParser.reparse_ok (unwords ws) p md' g
  rw [hx]
  obtain ⟨-, ⟨h1, h2⟩ | h1⟩ := GroupParser.reparse_first hx
  · exfalso
    have hne : p ≠ .RMK := by rcases hp with rfl | rfl <;> nofun
    have hws : ∀ w, ws = [w] → ∃ g', recognise g.index w p md = .ok (some g') := by
      rintro w rfl
      generalize hl : [w] = l at h
      cases h with
      | first hr =>
        cases hl
        exact ⟨_, by rw [GroupParser.recognise_index hr]; exact hr⟩
      | more hr ha =>
        have := congrArg List.length hl
        have hn := hr.ne_nil
        simp at this
        exact absurd this hn
    have one : ∀ w, ws = [w] → False := by
      intro w e
      obtain ⟨g', hg'⟩ := hws w e
      subst e
      rcases Props.C66_one_kind w p md md' _ _ _ _ hg' h1 with e | ⟨e, -⟩
      · exact h2 e.symm
      · exact hne e
    cases h.unfinished hp hw with
    | shear => exact one _ rfl
    | miles1 => exact one _ rfl
    | miles2 => exact one _ rfl
    | shearAll => exact wsAll_unknown _ _ _ _ h1
  · rw [h1]

/-! ### Independence of what has been said before -/

theorem append_md {p : ReportPart} {md md' : ReportMetadata} {g : Group} {s : Str}
    (hg : Plain p g) : g.append s p md = g.append s p md' := by
  cases g with
  | wind x =>
    obtain ⟨ht, hi⟩ := hg
    simp only [Group.append, WindGroup.append]
    rcases hi with hi | hi | hi
    · rw [hi]
      cases hwt : x.windType with
      | WIND_SHIFT => exact absurd hwt ht
      | _ => rfl
    · rw [hi]
    · rw [hi]
  | _ => rfl

theorem Spec.Reads.md {p : ReportPart} (hp : isBody p) {md md' : ReportMetadata} {ws : List Str} {g : Group}
    (h : Reads p md ws g) : Reads p md' ws g := by
  induction h with
  | first h => exact .first ((recognise_md hp _ _ _ _).symm.trans h)
  | more hr ha ih => exact .more ih ((append_md (hr.plain hp)).symm.trans ha)

theorem Spec.Cut.md {p : ReportPart} (hp : isBody p) {md md' : ReportMetadata} {t : Str} {ws : List Str}
    {items : List (Group × List Str)} (h : Cut p md t ws items) : Cut p md' t ws items := by
  induction h with
  | nil => exact .nil
  | group hr ha _ ih => exact .group (hr.md hp) ((append_md (hr.plain hp)).symm.trans ha) ih
  | broken hr ha _ ih => exact .broken (hr.md hp) ((append_md (hr.plain hp)).symm.trans ha) ih
  | unknown hu _ ih => exact .unknown (fun i g h => hu i g ((recognise_md hp _ _ _ _).symm.trans h)) ih

/-! ### The parser on the words of the body -/

namespace Parser

/-- The parser is in the body of a report, part `p`, and has met no error. -/
def InBody (p : ReportPart) (st : Status) : Prop :=
  st.reportError = .NONE ∧
    ((p = .METAR ∧ st.reportType = .METAR ∧ (st.state = .REPORT_BODY_BEGIN_METAR ∨ st.state = .REPORT_BODY_METAR)) ∨
     (p = .TAF ∧ st.reportType = .TAF ∧ (st.state = .REPORT_BODY_BEGIN_TAF ∨ st.state = .REPORT_BODY_TAF)))

theorem InBody.part {p : ReportPart} {st : Status} (h : InBody p st) : st.getReportPart = p := by
  obtain ⟨-, ⟨rfl, -, h | h⟩ | ⟨rfl, -, h | h⟩⟩ := h <;> simp [Status.getReportPart, h]

theorem InBody.isBody {p : ReportPart} {st : Status} (h : InBody p st) : Metaf.isBody p := by
  obtain ⟨-, ⟨rfl, -⟩ | ⟨rfl, -⟩⟩ := h
  · exact Or.inl rfl
  · exact Or.inr rfl

theorem InBody.noError {p : ReportPart} {st : Status} (h : InBody p st) : st.isError = false := by
  simp [Status.isError, h.1]

theorem stop_syntax {p : ReportPart} (hp : Metaf.isBody p) {md : ReportMetadata} {w : Str} {g : Group}
    (hw : w ∉ stops p) (h : GroupParser.parse w p md = .ok g) :
    getSyntaxGroup g ≠ .NIL ∧ getSyntaxGroup g ≠ .CNL ∧ getSyntaxGroup g ≠ .RMK ∧
      (p = .TAF → getSyntaxGroup g ≠ .MAINTENANCE_INDICATOR) := by
  rcases (GroupParser.parse_first h).2 with h2 | rfl
  · cases g with
    | keyword k =>
      obtain ⟨k', hk, e⟩ := map_some h2
      cases e
      obtain ⟨t⟩ := k
      obtain ⟨ps, hm, hps⟩ := keyword_parse_iff.mp hk
      simp only [keywords, List.mem_cons, Prod.mk.injEq, List.not_mem_nil, or_false] at hm
      rcases hp with rfl | rfl
      all_goals
        rcases hm with h | h | h | h | h | h | h | h | h | h | h | h | h | h | h | h <;>
          obtain ⟨rfl, rfl, rfl⟩ := h <;> first
            | (exact absurd hps (by decide))
            | (exact absurd (by decide) hw)
            | (refine ⟨nofun, nofun, nofun, nofun⟩)
    | trend t =>
      simp only [getSyntaxGroup]
      split <;> exact ⟨nofun, nofun, nofun, fun _ => nofun⟩
    | _ => exact ⟨nofun, nofun, nofun, fun _ => nofun⟩
  · exact ⟨nofun, nofun, nofun, fun _ => nofun⟩

theorem InBody.transition {p : ReportPart} {st : Status} (h : InBody p st) {sg : SyntaxGroup}
    (h1 : sg ≠ .NIL) (h2 : sg ≠ .CNL) (h3 : sg ≠ .RMK) (h4 : p = .TAF → sg ≠ .MAINTENANCE_INDICATOR) :
    InBody p (st.transition sg) ∧
      ((st.transition sg).state = .REPORT_BODY_METAR ∨ (st.transition sg).state = .REPORT_BODY_TAF) := by
  obtain ⟨s, t, e⟩ := st
  obtain ⟨he, ⟨rfl, ht, h | h⟩ | ⟨rfl, ht, h | h⟩⟩ := h <;> dsimp only at he ht h <;> subst he ht h <;>
    cases sg <;> first
      | (exact absurd rfl h1)
      | (exact absurd rfl h2)
      | (exact absurd rfl h3)
      | (exact absurd rfl (h4 rfl))
      | simp [InBody, Status.transition, Status.transitionFromReportBodyBeginMetar,
          Status.transitionFromReportBodyMetar, Status.transitionFromReportBodyBeginTaf,
          Status.transitionFromReportBodyTaf, Status.setState]

/-- A word of the body which the last group does not take. -/
theorem step_new {limit : Nat} {p : ReportPart} {v : Vars} {w : Str} {gs : List GroupInfo} {g : Group}
    (hb : InBody p v.status) (hl : v.groupCount + 1 < limit)
    (ha : appendToLastResultGroup v.groups w p v.md = .ok (gs, false))
    (hg : GroupParser.parse w p v.md = .ok g) (hw : w ∉ stops p) :
    ∃ v', stepTok limit w v = .ok v' ∧ InBody p v'.status ∧
      (v'.status.state = .REPORT_BODY_METAR ∨ v'.status.state = .REPORT_BODY_TAF) ∧
      v'.groups = addGroupToResult gs g p w ∧ v'.groupCount = v.groupCount + 1 := by
  obtain ⟨s1, s2, s3, s4⟩ := stop_syntax hb.isBody hw hg
  obtain ⟨t1, t2⟩ := hb.transition s1 s2 s3 s4
  have hlt : ¬ (v.groupCount + 1 ≥ limit) := by omega
  have hnr : (v.status.transition (getSyntaxGroup g)).isReparseRequired = false := by
    rcases t2 with e | e <;> simp [Status.isReparseRequired, e]
  refine ⟨{ status := v.status.transition (getSyntaxGroup g), md := updateMetadata g v.md,
            groups := addGroupToResult gs g p w, groupCount := v.groupCount + 1 }, ?_, t1, t2, rfl, rfl⟩
  simp only [stepTok, step, hb.part, ha, parseGroup, hg, countGroup, if_neg hlt, hnr, Bool.false_and,
    Bool.false_eq_true, if_false]

/-- A word of the body which the last group takes. -/
theorem step_taken {limit : Nat} {p : ReportPart} {v : Vars} {w : Str} {gs : List GroupInfo}
    (hb : InBody p v.status) (hl : v.groupCount + 1 < limit)
    (ha : appendToLastResultGroup v.groups w p v.md = .ok (gs, true)) :
    stepTok limit w v = .ok { v with groups := gs, groupCount := v.groupCount + 1 } := by
  have hlt : ¬ (v.groupCount + 1 ≥ limit) := by omega
  simp only [stepTok, step, hb.part, ha, countGroup, if_neg hlt]

theorem append_index {g g' : Group} {s : Str} {p : ReportPart} {md : ReportMetadata} {r : AppendResult}
    (h : g.append s p md = .ok (g', r)) : g'.index = g.index := by
  cases g with
  | minMaxTemperature x =>
    simp only [Group.append] at h
    split at h <;> cases h
    rfl
  | cloudTypes x =>
    simp only [Group.append] at h
    split at h <;> cases h
    rfl
  | _ => cases h; rfl

theorem plain_known {p : ReportPart} {g : Group} (h : Plain p g) : g.isFallback = false := by
  cases g <;> first | rfl | exact h.elim

/-- The parser on the words of one group. -/
theorem fold_reads {limit : Nat} {p : ReportPart} {md : ReportMetadata} {ws : List Str} {g : Group}
    (h : Reads p md ws g) : ∀ {v : Vars} {G : List GroupInfo}, InBody p v.status →
    v.groupCount + ws.length < limit → (∀ w ∈ ws, w ∉ stops p) →
    appendToLastResultGroup v.groups (ws.headD []) p v.md = .ok (G, false) →
    ∃ v', foldTokens limit ws v = .ok v' ∧ InBody p v'.status ∧
      (v'.status.state = .REPORT_BODY_METAR ∨ v'.status.state = .REPORT_BODY_TAF) ∧
      v'.groups = ⟨g, p, unwords ws⟩ :: G ∧ v'.groupCount = v.groupCount + ws.length := by
  induction h with
  | @first w i g hr =>
    intro v G hb hl hs ha
    have hp := hb.isBody
    have hne : p ≠ .RMK := by rcases hp with rfl | rfl <;> nofun
    have hg : GroupParser.parse w p v.md = .ok g :=
      Props.C66_order_free w p v.md i g ((recognise_md hp _ _ _ _).trans hr) (fun h => hne h.2.1)
    obtain ⟨v', h1, h2, h3, h4, h5⟩ := step_new (limit := limit) hb hl ha hg (hs w (by simp))
    simp only [List.headD_cons] at h1 h4
    refine ⟨v', ?_, h2, h3, ?_, h5⟩
    · simp only [foldTokens, hb.noError, Bool.false_eq_true, if_false, h1]
    · rw [h4, addGroup_not_fallback (plain_known (recognise_plain hp hr))]
      rfl
  | @more ws g g' w hr happ ih =>
    intro v G hb hl hs ha
    have hp := hb.isBody
    have hne := hr.ne_nil
    rw [List.length_append] at hl
    simp only [List.length_cons, List.length_nil] at hl
    have hh : (ws ++ [w]).headD [] = ws.headD [] := by
      cases ws with
      | nil => exact absurd rfl hne
      | cons a ws => rfl
    rw [hh] at ha
    obtain ⟨v', h1, h2, h3, h4, h5⟩ := ih hb (by omega) (fun x hx => hs x (by simp [hx])) ha
    have hap : appendToLastResultGroup v'.groups w p v'.md =
        .ok (⟨g', p, unwords ws ++ c!" " ++ w⟩ :: G, true) := by
      rw [h4]
      have := (append_md (md' := v'.md) (hr.plain hp)).symm.trans happ
      simp only [appendToLastResultGroup, plain_known (hr.plain hp), Bool.false_eq_true, if_false, this]
    have hst := step_taken (limit := limit) h2 (by omega) hap
    refine ⟨{ v' with groups := ⟨g', p, unwords ws ++ c!" " ++ w⟩ :: G, groupCount := v'.groupCount + 1 },
      ?_, h2, h3, ?_, ?_⟩
    · rw [foldTokens_append, h1]
      simp only [foldTokens, h2.noError, Bool.false_eq_true, if_false, hst]
    · simp only
      rw [unwords_snoc ws w hne]
    · simp only [List.length_append, List.length_cons, List.length_nil, h5]
      omega

/-- Adding items to the groups of the result. -/
def push (p : ReportPart) (G : List GroupInfo) (items : List (Group × List Str)) : List GroupInfo :=
  items.foldl (fun G it => addGroupToResult G it.1 p (unwords it.2)) G

theorem addGroup_fallback_head (G : List GroupInfo) (u : UnknownGroup) (p : ReportPart) (s : Str) :
    ∃ x l, addGroupToResult G (.unknown u) p s = x :: l ∧ x.group.isFallback = true := by
  cases G with
  | nil => exact ⟨_, _, rfl, rfl⟩
  | cons a l =>
    simp only [addGroupToResult]
    split
    · rename_i h
      refine ⟨_, _, rfl, ?_⟩
      simp only [Bool.and_eq_true] at h
      exact h.2
    · exact ⟨_, _, rfl, rfl⟩

theorem append_fallback_head {G : List GroupInfo} {u : UnknownGroup} {p : ReportPart} {s t : Str}
    {q : ReportPart} {md : ReportMetadata} :
    appendToLastResultGroup (addGroupToResult G (.unknown u) p s) t q md =
      .ok (addGroupToResult G (.unknown u) p s, false) := by
  obtain ⟨x, l, e, hx⟩ := addGroup_fallback_head G u p s
  rw [e]
  simp only [appendToLastResultGroup, hx, if_true]

theorem headD_append {ws rest : List Str} (h : ws ≠ []) (t : Str) : (ws ++ rest).headD t = ws.headD [] := by
  cases ws with
  | nil => exact absurd rfl h
  | cons a ws => rfl

/-- The parser on the words of a body. -/
theorem fold_cut {limit : Nat} {p : ReportPart} {md : ReportMetadata} {t : Str} {ws : List Str}
    {items : List (Group × List Str)} (h : Cut p md t ws items) :
    ∀ {v : Vars} {G : List GroupInfo}, InBody p v.status →
    v.groupCount + ws.length < limit → (∀ w ∈ ws, w ∉ stops p) →
    appendToLastResultGroup v.groups (ws.headD t) p v.md = .ok (G, false) →
    ∃ v', foldTokens limit ws v = .ok v' ∧ InBody p v'.status ∧
      (ws ≠ [] → v'.status.state = .REPORT_BODY_METAR ∨ v'.status.state = .REPORT_BODY_TAF) ∧
      appendToLastResultGroup v'.groups t p v'.md = .ok (push p G items, false) ∧
      v'.groupCount = v.groupCount + ws.length := by
  induction h with
  | nil =>
    intro v G hb hl hs ha
    exact ⟨v, rfl, hb, fun h => absurd rfl h, ha, rfl⟩
  | @group ws rest g items hr happ hc ih =>
    intro v G hb hl hs ha
    have hp := hb.isBody
    rw [List.length_append] at hl
    rw [headD_append hr.ne_nil] at ha
    obtain ⟨v1, h1, h2, h3, h4, h5⟩ := fold_reads (limit := limit) hr hb (by omega) (fun w hw => hs w (by simp [hw])) ha
    have hap : appendToLastResultGroup v1.groups (rest.headD t) p v1.md =
        .ok (⟨g, p, unwords ws⟩ :: G, false) := by
      rw [h4]
      have := (append_md (md' := v1.md) (hr.plain hp)).symm.trans happ
      simp only [appendToLastResultGroup, plain_known (hr.plain hp), Bool.false_eq_true, if_false, this]
    obtain ⟨v2, k1, k2, k3, k4, k5⟩ := ih h2 (by omega) (fun w hw => hs w (by simp [hw])) hap
    have hk : g.isFallback = false := plain_known (hr.plain hp)
    refine ⟨v2, ?_, k2, ?_, ?_, ?_⟩
    · rw [foldTokens_append, h1]
      exact k1
    · intro _
      by_cases hrest : rest = []
      · subst hrest
        obtain rfl := Except.ok.inj k1
        exact h3
      · exact k3 hrest
    · rw [k4]
      simp only [push, List.foldl_cons]
      rw [addGroup_not_fallback hk]
    · rw [k5, h5, List.length_append]
      omega
  | @broken ws rest g items hr happ hc ih =>
    intro v G hb hl hs ha
    have hp := hb.isBody
    rw [List.length_append] at hl
    rw [headD_append hr.ne_nil] at ha
    obtain ⟨v1, h1, h2, h3, h4, h5⟩ := fold_reads (limit := limit) hr hb (by omega) (fun w hw => hs w (by simp [hw])) ha
    obtain ⟨-, hw⟩ := plain_outcome (hr.plain hp) happ rfl
    have hap : appendToLastResultGroup v1.groups (rest.headD t) p v1.md =
        .ok (addGroupToResult G (.unknown {}) p (unwords ws), false) := by
      rw [h4]
      have := (append_md (md' := v1.md) (hr.plain hp)).symm.trans happ
      simp only [appendToLastResultGroup, plain_known (hr.plain hp), Bool.false_eq_true, if_false, this,
        reparse_unknown hp hr hw]
      rfl
    obtain ⟨v2, k1, k2, k3, k4, k5⟩ := ih h2 (by omega) (fun w hw => hs w (by simp [hw])) hap
    refine ⟨v2, ?_, k2, ?_, k4, ?_⟩
    · rw [foldTokens_append, h1]
      exact k1
    · intro _
      by_cases hrest : rest = []
      · subst hrest
        obtain rfl := Except.ok.inj k1
        exact h3
      · exact k3 hrest
    · rw [k5, h5, List.length_append]
      omega
  | @unknown w rest items hu hc ih =>
    intro v G hb hl hs ha
    have hp := hb.isBody
    simp only [List.length_cons] at hl
    have hg : GroupParser.parse w p v.md = .ok (.unknown {}) :=
      (Props.C66_unknown w p v.md).mpr fun i g h => hu i g ((recognise_md hp _ _ _ _).trans h)
    obtain ⟨v1, h1, h2, h3, h4, h5⟩ := step_new (limit := limit) hb (by omega) ha hg (hs w (by simp))
    simp only [List.headD_cons] at h1 h4
    have hap : appendToLastResultGroup v1.groups (rest.headD t) p v1.md =
        .ok (addGroupToResult G (.unknown {}) p w, false) := by
      rw [h4]
      exact append_fallback_head
    obtain ⟨v2, k1, k2, k3, k4, k5⟩ := ih h2 (by omega) (fun w hw => hs w (by simp [hw])) hap
    refine ⟨v2, ?_, k2, ?_, k4, ?_⟩
    · simp only [foldTokens, hb.noError, Bool.false_eq_true, if_false, h1]
      exact k1
    · intro _
      by_cases hrest : rest = []
      · subst hrest
        obtain rfl := Except.ok.inj k1
        exact h3
      · exact k3 hrest
    · rw [k5, h5, List.length_cons]
      omega

/-! ### Entries of the result -/

/-- Later entries after earlier ones (latest first). -/
def attach : List GroupInfo → List GroupInfo → List GroupInfo
  | last :: G, e :: es =>
    if last.group.isFallback && e.group.isFallback then
      G.reverse ++ { last with rawString := last.rawString ++ ' ' :: e.rawString } :: es
    else G.reverse ++ last :: e :: es
  | G, es => G.reverse ++ es

theorem attach_nil (G : List GroupInfo) : attach G [] = G.reverse := by
  cases G <;> simp [attach]

theorem attach_known {G : List GroupInfo} (h : ∀ x ∈ G.head?, x.group.isFallback = false)
    (es : List GroupInfo) : attach G es = G.reverse ++ es := by
  cases G with
  | nil => simp [attach]
  | cons x G =>
    cases es with
    | nil => simp [attach]
    | cons e es =>
      have : x.group.isFallback = false := h x (by simp)
      simp [attach, this]

theorem push_reverse {p : ReportPart} : ∀ (items : List (Group × List Str)) (G : List GroupInfo),
    (push p G items).reverse = attach G (entries p items) := by
  intro items
  induction items with
  | nil => intro G; simp [push, entries, attach_nil]
  | cons it items ih =>
    intro G
    obtain ⟨g, ws⟩ := it
    have := ih (addGroupToResult G g p (unwords ws))
    simp only [push, List.foldl_cons] at this ⊢
    rw [this]
    cases hg : g.isFallback with
    | false =>
      rw [addGroup_not_fallback hg, attach_known (by simpa using hg)]
      have he : entries p ((g, ws) :: items) = ⟨g, p, unwords ws⟩ :: entries p items := by
        cases g with
        | unknown u => cases hg
        | _ => rfl
      rw [he]
      cases G with
      | nil => simp [attach]
      | cons x G => simp [attach, hg]
    | true =>
      obtain ⟨u, rfl⟩ : ∃ u, g = .unknown u := by cases g <;> first | exact ⟨_, rfl⟩ | cases hg
      have he : entries p ((.unknown u, ws) :: items) = attach [⟨.unknown u, p, unwords ws⟩] (entries p items) := by
        simp only [entries]
        split
        · rename_i h1 h2
          cases h1
          rw [h2]
          rfl
        · rename_i h1
          cases hes : entries p items with
          | nil => simp [attach]
          | cons e es =>
            have hf : e.group.isFallback = false := by
              obtain ⟨eg, ep, er⟩ := e
              cases eg with
              | unknown u' => exact absurd hes (h1 u u' ep er es rfl)
              | _ => rfl
            simp [attach, hf]
      rw [he]
      have hu : (Group.unknown u).isFallback = true := rfl
      cases G with
      | nil => simp [addGroupToResult, attach]
      | cons x G =>
        cases hx : x.group.isFallback with
        | false =>
          simp only [addGroupToResult, hx, Bool.and_false, Bool.false_eq_true, if_false]
          rw [attach_known (G := x :: G) (by simpa using hx)]
          cases hes : entries p items with
          | nil => simp [attach]
          | cons e es =>
            cases hf : e.group.isFallback <;> simp [attach, hf, hu]
        | true =>
          simp only [addGroupToResult, hx, hu, Bool.and_self, if_true]
          cases hes : entries p items with
          | nil => simp [attach, hx, hu]
          | cons e es =>
            cases hf : e.group.isFallback <;> simp [attach, hf, hu, hx]

end Parser

/-! ### Every body is divided in some way -/

theorem recognise_empty {p : ReportPart} (hp : isBody p) {md : ReportMetadata} (i : Nat) (hi : i < 21) :
    recognise i [] p md = .ok none := by
  rcases hp with rfl | rfl <;> interval_cases i <;> rfl

theorem inert_not_taken {p : ReportPart} (hp : isBody p) {md : ReportMetadata} {g g' : Group} {t : Str}
    (ht : t = [] ∨ t ∈ stops p) (hg : Plain p g) : g.append t p md ≠ .ok (g', .APPENDED) := by
  intro h
  have hall : t ∈ [[], c!"NIL", c!"CNL", c!"RMK", c!"$"] := by
    rcases ht with rfl | ht
    · simp
    · rcases hp with rfl | rfl <;> simp only [stops, List.mem_cons, List.not_mem_nil, or_false] at ht ⊢ <;> tauto
  have hin : t ∈ inertTexts := by
    simp only [List.mem_cons, List.not_mem_nil, or_false] at hall
    rcases hall with rfl | rfl | rfl | rfl | rfl <;> simp [inertTexts]
  have hkey : t = [] ∨ ∃ k, recognise 0 t p md = .ok (some (.keyword k)) := by
    simp only [List.mem_cons, List.not_mem_nil, or_false] at hall
    rcases hp with rfl | rfl <;> rcases hall with rfl | rfl | rfl | rfl | rfl <;>
      first | exact Or.inl rfl | exact Or.inr ⟨_, rfl⟩
  have h2 : t ≠ c!"ALL" ∧ t ≠ c!"RWY" := by
    simp only [List.mem_cons, List.not_mem_nil, or_false] at hall
    rcases hall with rfl | rfl | rfl | rfl | rfl <;> decide
  by_cases hw : Waits g
  · cases g with
    | wind x =>
      obtain ⟨-, hi⟩ := hg
      simp only [Group.append, WindGroup.append] at h
      rcases hi with hi | hi | hi
      · exact hw hi
      · rw [hi] at h
        simp only [inert_runway hin] at h
        split at h
        · rename_i e; exact absurd e h2.1
        · cases h
      · rw [hi] at h
        simp only at h
        split at h
        · cases h
        · rename_i e
          exact e h2.2
    | visibility x =>
      simp only [Group.append, VisibilityGroup.append] at h
      rcases hg with hi | hi
      · exact hw hi
      · rw [hi] at h
        simp only [VisibilityGroup.firstOf, VisibilityGroup.appendFractionToIncompleteInteger,
          inert_mile hin] at h
        cases h
    | _ => exact hw.elim
  · have hk : ∀ x, g = .keyword x → False := by
      rintro x rfl
      cases h
    have hrec : ∀ g', recognise g.index t p md ≠ .ok (some g') := by
      intro g2 h2
      rcases hkey with rfl | ⟨k, hr⟩
      · rw [recognise_empty hp _ (Props.recognise_shape h2).1] at h2
        cases h2
      · rcases Props.C66_one_kind _ _ _ _ _ _ _ _ hr h2 with e | ⟨rfl, -⟩
        · cases g with
          | keyword x => exact hk x rfl
          | _ => cases e
        · rcases hp with hp | hp <;> cases hp
    rw [plain_reject hp hg hw hrec] at h
    cases h

theorem append_total {p : ReportPart} {md : ReportMetadata} {g : Group} (hg : Plain p g) (s : Str) :
    ∃ g' r, g.append s p md = .ok (g', r) := by
  cases g with
  | minMaxTemperature x =>
    obtain ⟨r, hr, -⟩ := MinMaxTemperatureGroup.append_ok hg.2.2.1 s
    simp only [Group.append, hr]
    exact ⟨_, _, rfl⟩
  | cloudTypes x => exact hg.elim
  | _ => exact ⟨_, _, rfl⟩

/-- Words after a group that has been begun. -/
theorem cut_after {p : ReportPart} (hp : isBody p) {md : ReportMetadata} {t : Str}
    (ht : t = [] ∨ t ∈ stops p) (n : Nat)
    (hall : ∀ rest, rest.length ≤ n → ∃ items, Cut p md t rest items) :
    ∀ (rest ws : List Str) (g : Group), rest.length ≤ n → Reads p md ws g →
      ∃ items, Cut p md t (ws ++ rest) items := by
  intro rest
  induction rest with
  | nil =>
    intro ws g _ hr
    obtain ⟨g', r, ha⟩ := append_total (md := md) (hr.plain hp) t
    cases r with
    | APPENDED => exact absurd ha (inert_not_taken hp ht (hr.plain hp))
    | NOT_APPENDED =>
      obtain rfl := plain_unchanged (hr.plain hp) ha
      exact ⟨_, .group (rest := []) hr ha .nil⟩
    | GROUP_INVALIDATED =>
      obtain ⟨rfl, -⟩ := plain_outcome (hr.plain hp) ha rfl
      exact ⟨_, .broken (rest := []) hr ha .nil⟩
  | cons w rest ih =>
    intro ws g hn hr
    obtain ⟨g', r, ha⟩ := append_total (md := md) (hr.plain hp) w
    cases r with
    | APPENDED =>
      obtain ⟨items, hi⟩ := ih (ws ++ [w]) g' (by simp at hn; omega) (.more hr ha)
      exact ⟨items, by simpa using hi⟩
    | NOT_APPENDED =>
      obtain ⟨items, hi⟩ := hall (w :: rest) hn
      obtain rfl := plain_unchanged (hr.plain hp) ha
      exact ⟨_, .group (rest := w :: rest) hr ha hi⟩
    | GROUP_INVALIDATED =>
      obtain ⟨items, hi⟩ := hall (w :: rest) hn
      obtain ⟨rfl, -⟩ := plain_outcome (hr.plain hp) ha rfl
      exact ⟨_, .broken (rest := w :: rest) hr ha hi⟩

theorem cut_exists {p : ReportPart} (hp : isBody p) {md : ReportMetadata} {t : Str}
    (ht : t = [] ∨ t ∈ stops p) (ws : List Str) : ∃ items, Cut p md t ws items := by
  have : ∀ n, ∀ ws : List Str, ws.length ≤ n → ∃ items, Cut p md t ws items := by
    intro n
    induction n with
    | zero =>
      intro ws h
      obtain rfl : ws = [] := List.length_eq_zero_iff.mp (by omega)
      exact ⟨_, .nil⟩
    | succ n ih =>
      intro ws h
      cases ws with
      | nil => exact ⟨_, .nil⟩
      | cons w rest =>
        by_cases hu : ∀ i g, recognise i w p md ≠ .ok (some g)
        · obtain ⟨items, hi⟩ := ih rest (by simp at h; omega)
          exact ⟨_, .unknown hu hi⟩
        · simp only [not_forall, ne_eq, not_not] at hu
          obtain ⟨i, g, hr⟩ := hu
          exact cut_after hp ht n ih rest [w] g (by simp at h; omega) (.first hr)
  exact this _ ws le_rfl

end Metaf

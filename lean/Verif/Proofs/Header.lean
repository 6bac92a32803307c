import Verif.Proofs.Cut
import Verif.Props.Trend

/-!
The parser on the header of a report.
-/

set_option linter.unusedSectionVars false

namespace Metaf

open Spec

variable [FloatSem]

namespace Parser

/-- A group which takes no text at all. -/
def Closed (g : Group) : Prop :=
  g.isFallback = false ∧ ∀ s p md, g.append s p md = .ok (g, .NOT_APPENDED)

theorem closed_keyword (k : KeywordGroup) : Closed (.keyword k) := ⟨rfl, fun _ _ _ => rfl⟩
theorem closed_location (k : LocationGroup) : Closed (.location k) := ⟨rfl, fun _ _ _ => rfl⟩
theorem closed_time (k : ReportTimeGroup) : Closed (.reportTime k) := ⟨rfl, fun _ _ _ => rfl⟩

theorem closed_span {k : TrendGroup} (h : k.t = .TIME_SPAN) : Closed (.trend k) := by
  refine ⟨rfl, fun s p md => ?_⟩
  simp only [Group.append, TrendGroup.append, h]
  simp only [reduceCtorEq, if_false]
  cases TrendGroup.parse s p with
  | none => rfl
  | some n =>
    simp [TrendGroup.combineProbAndTrendTypeGroups, TrendGroup.isProbabilityGroup, h,
      TrendGroup.combineTrendTypeAndTimeGroup, TrendGroup.combineProbAndTimeSpanGroups,
      TrendGroup.combineIncompleteGroups]

/-- The last group, if there is any, takes no text. -/
def LastClosed (gs : List GroupInfo) : Prop := ∀ x ∈ gs.head?, Closed x.group

theorem LastClosed.append {gs : List GroupInfo} (h : LastClosed gs) (s : Str) (p : ReportPart)
    (md : ReportMetadata) : appendToLastResultGroup gs s p md = .ok (gs, false) := by
  cases gs with
  | nil => rfl
  | cons x gs =>
    obtain ⟨h1, h2⟩ := h x (by simp)
    simp only [appendToLastResultGroup, h1, Bool.false_eq_true, if_false, h2]

theorem recognise_header_md (i : Nat) (s : Str) (md md' : ReportMetadata) :
    recognise i s .HEADER md = recognise i s .HEADER md' := by
  unfold recognise
  rfl

/-- One word of the header. -/
theorem step_header {limit : Nat} {v : Vars} {w : Str} {i : Nat} {g : Group}
    (hp : v.status.getReportPart = .HEADER) (he : v.status.isError = false)
    (hc : LastClosed v.groups) (hl : v.groupCount + 1 < limit)
    (hr : recognise i w .HEADER {} = .ok (some g)) (hg : Closed g)
    (hs : (v.status.transition (getSyntaxGroup g)).isReparseRequired = false)
    (ts : List Str) :
    foldTokens limit (w :: ts) v =
      foldTokens limit ts { status := v.status.transition (getSyntaxGroup g), md := updateMetadata g v.md,
                            groups := ⟨g, .HEADER, w⟩ :: v.groups, groupCount := v.groupCount + 1 } := by
  have hlt : ¬ (v.groupCount + 1 ≥ limit) := by omega
  have hpg : GroupParser.parse w .HEADER v.md = .ok g :=
    Props.C66_order_free w .HEADER v.md i g ((recognise_header_md _ _ _ _).trans hr) (fun h => nomatch h.2.1)
  simp only [foldTokens, he, Bool.false_eq_true, if_false, stepTok, step, hp, hc.append, parseGroup, hpg,
    countGroup, if_neg hlt, hs, Bool.false_and, addGroup_not_fallback hg.1]

theorem keyword_recognised {s : Str} {p : ReportPart} {k : KeywordType} (md : ReportMetadata)
    (h : IsKeyword p s k) : recognise 0 s p md = .ok (some (.keyword ⟨k⟩)) := by
  simp [recognise, keyword_parse_iff.mpr h]

theorem recognise_location {s : Str} {L : Group} {p : ReportPart} (h : recognise 1 s p {} = .ok (some L)) :
    Closed L ∧ getSyntaxGroup L = .LOCATION := by
  obtain ⟨x, -, rfl⟩ := map_some h
  exact ⟨closed_location x, rfl⟩

theorem recognise_time {s : Str} {L : Group} {p : ReportPart} (h : recognise 2 s p {} = .ok (some L)) :
    Closed L ∧ getSyntaxGroup L = .REPORT_TIME := by
  obtain ⟨x, -, rfl⟩ := map_some h
  exact ⟨closed_time x, rfl⟩

theorem recognise_span {s : Str} {L : Group} (h : recognise 3 s .HEADER {} = .ok (some L)) :
    Closed L ∧ getSyntaxGroup L = .TIME_SPAN := by
  obtain ⟨x, hx, rfl⟩ := map_some h
  simp only [TrendGroup.parse, reduceCtorEq, or_self, false_and, if_false] at hx
  unfold TrendGroup.fromTimeSpan at hx
  split at hx
  · cases hx
  · split at hx
    · obtain rfl := Option.some.inj hx
      exact ⟨closed_span rfl, rfl⟩
    · cases hx

/-- What the parser knows after the header of a report. -/
structure AfterHeader (ty : ReportType) (hs : List (Str × Group)) (v : Vars) : Prop where
  body : InBody (bodyPart ty) v.status
  type : v.status.reportType = ty
  groups : v.groups.reverse = hs.map fun x => ⟨x.2, .HEADER, x.1⟩
  closed : LastClosed v.groups
  count : v.groupCount = hs.length

theorem fold_header {limit : Nat} {ty : ReportType} {hs : List (Str × Group)} (h : Header ty hs)
    (hl : hs.length < limit) (ts : List Str) :
    ∃ v, foldTokens limit (hs.map Prod.fst ++ ts) {} = foldTokens limit ts v ∧ AfterHeader ty hs v := by
  have kMetar : recognise 0 c!"METAR" .HEADER {} = .ok (some (.keyword ⟨.METAR⟩)) := rfl
  have kSpeci : recognise 0 c!"SPECI" .HEADER {} = .ok (some (.keyword ⟨.SPECI⟩)) := rfl
  have kTaf : recognise 0 c!"TAF" .HEADER {} = .ok (some (.keyword ⟨.TAF⟩)) := rfl
  have kCor : recognise 0 c!"COR" .HEADER {} = .ok (some (.keyword ⟨.COR⟩)) := rfl
  have kAmd : recognise 0 c!"AMD" .HEADER {} = .ok (some (.keyword ⟨.AMD⟩)) := rfl
  have last : ∀ {x : GroupInfo} {gs : List GroupInfo}, Closed x.group → LastClosed (x :: gs) := by
    intro x gs h y hy
    simp only [List.head?_cons, Option.mem_def, Option.some.injEq] at hy
    subst hy
    exact h
  have none : LastClosed [] := by intro x hx; simp at hx
  cases h with
  | @metar k cor l t L T hk hc hL hT =>
    obtain ⟨cL, sL⟩ := recognise_location hL
    obtain ⟨cT, sT⟩ := recognise_time hT
    simp only [List.mem_cons, List.not_mem_nil, or_false] at hk hc
    rcases hk with rfl | rfl <;> rcases hc with rfl | rfl <;>
      simp only [List.cons_append, List.nil_append, List.map_cons, List.map_nil, List.length_cons,
        List.length_nil] at hl ⊢
    · rw [step_header rfl rfl none (by simp; omega) kMetar (closed_keyword _) rfl,
        step_header rfl rfl (last (closed_keyword _)) (by simp; omega) hL cL (by rw [sL]; rfl), sL,
        step_header rfl rfl (last cL) (by simp; omega) hT cT (by rw [sT]; rfl), sT]
      exact ⟨_, rfl, ⟨rfl, Or.inl ⟨rfl, rfl, Or.inl rfl⟩⟩, rfl, rfl, last cT, rfl⟩
    · rw [step_header rfl rfl none (by simp; omega) kMetar (closed_keyword _) rfl,
        step_header rfl rfl (last (closed_keyword _)) (by simp; omega) kCor (closed_keyword _) rfl,
        step_header rfl rfl (last (closed_keyword _)) (by simp; omega) hL cL (by rw [sL]; rfl), sL,
        step_header rfl rfl (last cL) (by simp; omega) hT cT (by rw [sT]; rfl), sT]
      exact ⟨_, rfl, ⟨rfl, Or.inl ⟨rfl, rfl, Or.inl rfl⟩⟩, rfl, rfl, last cT, rfl⟩
    · rw [step_header rfl rfl none (by simp; omega) kSpeci (closed_keyword _) rfl,
        step_header rfl rfl (last (closed_keyword _)) (by simp; omega) hL cL (by rw [sL]; rfl), sL,
        step_header rfl rfl (last cL) (by simp; omega) hT cT (by rw [sT]; rfl), sT]
      exact ⟨_, rfl, ⟨rfl, Or.inl ⟨rfl, rfl, Or.inl rfl⟩⟩, rfl, rfl, last cT, rfl⟩
    · rw [step_header rfl rfl none (by simp; omega) kSpeci (closed_keyword _) rfl,
        step_header rfl rfl (last (closed_keyword _)) (by simp; omega) kCor (closed_keyword _) rfl,
        step_header rfl rfl (last (closed_keyword _)) (by simp; omega) hL cL (by rw [sL]; rfl), sL,
        step_header rfl rfl (last cL) (by simp; omega) hT cT (by rw [sT]; rfl), sT]
      exact ⟨_, rfl, ⟨rfl, Or.inl ⟨rfl, rfl, Or.inl rfl⟩⟩, rfl, rfl, last cT, rfl⟩
  | @taf cor time l s L S hc hL ht hS =>
    obtain ⟨cL, sL⟩ := recognise_location hL
    obtain ⟨cS, sS⟩ := recognise_span hS
    simp only [List.mem_cons, List.not_mem_nil, or_false] at hc
    rcases hc with rfl | rfl | rfl <;> rcases ht with rfl | ⟨t, T, rfl, hT⟩ <;>
      simp only [List.cons_append, List.nil_append, List.map_cons, List.map_nil, List.length_cons,
        List.length_nil] at hl ⊢
    · rw [step_header rfl rfl none (by simp; omega) kTaf (closed_keyword _) rfl,
        step_header rfl rfl (last (closed_keyword _)) (by simp; omega) hL cL (by rw [sL]; rfl), sL,
        step_header rfl rfl (last cL) (by simp; omega) hS cS (by rw [sS]; rfl), sS]
      exact ⟨_, rfl, ⟨rfl, Or.inr ⟨rfl, rfl, Or.inl rfl⟩⟩, rfl, rfl, last cS, rfl⟩
    · obtain ⟨cT, sT⟩ := recognise_time hT
      rw [step_header rfl rfl none (by simp; omega) kTaf (closed_keyword _) rfl,
        step_header rfl rfl (last (closed_keyword _)) (by simp; omega) hL cL (by rw [sL]; rfl), sL,
        step_header rfl rfl (last cL) (by simp; omega) hT cT (by rw [sT]; rfl), sT,
        step_header rfl rfl (last cT) (by simp; omega) hS cS (by rw [sS]; rfl), sS]
      exact ⟨_, rfl, ⟨rfl, Or.inr ⟨rfl, rfl, Or.inl rfl⟩⟩, rfl, rfl, last cS, rfl⟩
    · rw [step_header rfl rfl none (by simp; omega) kTaf (closed_keyword _) rfl,
        step_header rfl rfl (last (closed_keyword _)) (by simp; omega) kCor (closed_keyword _) rfl,
        step_header rfl rfl (last (closed_keyword _)) (by simp; omega) hL cL (by rw [sL]; rfl), sL,
        step_header rfl rfl (last cL) (by simp; omega) hS cS (by rw [sS]; rfl), sS]
      exact ⟨_, rfl, ⟨rfl, Or.inr ⟨rfl, rfl, Or.inl rfl⟩⟩, rfl, rfl, last cS, rfl⟩
    · obtain ⟨cT, sT⟩ := recognise_time hT
      rw [step_header rfl rfl none (by simp; omega) kTaf (closed_keyword _) rfl,
        step_header rfl rfl (last (closed_keyword _)) (by simp; omega) kCor (closed_keyword _) rfl,
        step_header rfl rfl (last (closed_keyword _)) (by simp; omega) hL cL (by rw [sL]; rfl), sL,
        step_header rfl rfl (last cL) (by simp; omega) hT cT (by rw [sT]; rfl), sT,
        step_header rfl rfl (last cT) (by simp; omega) hS cS (by rw [sS]; rfl), sS]
      exact ⟨_, rfl, ⟨rfl, Or.inr ⟨rfl, rfl, Or.inl rfl⟩⟩, rfl, rfl, last cS, rfl⟩
    · rw [step_header rfl rfl none (by simp; omega) kTaf (closed_keyword _) rfl,
        step_header rfl rfl (last (closed_keyword _)) (by simp; omega) kAmd (closed_keyword _) rfl,
        step_header rfl rfl (last (closed_keyword _)) (by simp; omega) hL cL (by rw [sL]; rfl), sL,
        step_header rfl rfl (last cL) (by simp; omega) hS cS (by rw [sS]; rfl), sS]
      exact ⟨_, rfl, ⟨rfl, Or.inr ⟨rfl, rfl, Or.inl rfl⟩⟩, rfl, rfl, last cS, rfl⟩
    · obtain ⟨cT, sT⟩ := recognise_time hT
      rw [step_header rfl rfl none (by simp; omega) kTaf (closed_keyword _) rfl,
        step_header rfl rfl (last (closed_keyword _)) (by simp; omega) kAmd (closed_keyword _) rfl,
        step_header rfl rfl (last (closed_keyword _)) (by simp; omega) hL cL (by rw [sL]; rfl), sL,
        step_header rfl rfl (last cL) (by simp; omega) hT cT (by rw [sT]; rfl), sT,
        step_header rfl rfl (last cT) (by simp; omega) hS cS (by rw [sS]; rfl), sS]
      exact ⟨_, rfl, ⟨rfl, Or.inr ⟨rfl, rfl, Or.inl rfl⟩⟩, rfl, rfl, last cS, rfl⟩

end Parser

end Metaf

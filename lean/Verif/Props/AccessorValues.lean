import Verif.Props.Accessors

/-!
C76, C77: the distances which the accessors of a visibility or cloud group give are those of its text.
-/

set_option linter.unusedSectionVars false

namespace Metaf.Props

open Metaf Metaf.Spec

variable [FloatIeee]

/-! ### Specification -/

/-- What a text says of a distance. -/
inductive Measured
  | nothing
  | one (d : Distance)
  | range (min max : Distance)

/-- The words before and after the amount in a remark on visibility: where it was measured. -/
inductive AmountPlace : List Str → List Str → Prop
  | all : AmountPlace [c!"VIS"] []
  | runway {s r} : RunwayWord s r → AmountPlace [c!"VIS"] [s]
  | direction {s d f t} : WhereWord s d f t → AmountPlace [c!"VIS", s] []
  | observer {w} : w ∈ [c!"SFC", c!"TWR"] → AmountPlace [w, c!"VIS"] []

/-- `VisibilitySays ws m`: the words `ws` give the visibility `m`. -/
inductive VisibilitySays : List Str → Measured → Prop
  | miles {k n} : k = 1 ∨ k = 2 → n < 10 ^ k → VisibilitySays [decimal k n] (.one ⟨.NONE, some (10000 * n), .STATUTE_MILES⟩)
  | meters {v x d t o} : MeterText v d → SuffixText x t o → VisibilitySays [v ++ x] (.one d)
  | mileGroup {s d} : MilesGroup s d → VisibilitySays [s] (.one d)
  | milesAndFraction {k n s f} : k = 1 ∨ k = 2 → n < 10 ^ k → MilesGroup s ⟨.NONE, some f, .STATUTE_MILES⟩ →
      VisibilitySays [decimal k n, s] (.one ⟨.NONE, some (10000 * n + f), .STATUTE_MILES⟩)
  | runway {v : RvrText} : v.Ok → v.max = none → VisibilitySays [v.text] (.one (RvrText.distance v.value v.feet))
  | runwayRange {v : RvrText} {m} : v.Ok → v.max = some m →
      VisibilitySays [v.text] (.range (RvrText.distance v.value v.feet) (RvrText.distance (some m) v.feet))
  | remark {before after as k v x} : AmountPlace before after → Amount as k v x → k.isRange = false →
      VisibilitySays (before ++ as ++ after) (.one v)
  | remarkRange {before after as k v x} : AmountPlace before after → Amount as k v x → k.isRange = true →
      VisibilitySays (before ++ as ++ after) (.range v x)
  | missing {ws} : ws ∈ [[c!"VIS", c!"MISG"], [c!"RVRNO"], [c!"RVR"], [c!"RVR", c!"MISG"], [c!"VISNO"]] →
      VisibilitySays ws .nothing
  | notHere {s} : VisibilitySays [c!"VISNO", s] .nothing

/-- The accessors of a visibility group give this: a single value, or a minimum and a maximum. -/
def VisibilityGives (g : VisibilityGroup) : Measured → Prop
  | .nothing => g.visibility.isReported = false ∧ g.minVisibility.isReported = false ∧ g.maxVisibility.isReported = false
  | .one d => g.visibility = d ∧ g.minVisibility.isReported = false ∧ g.maxVisibility.isReported = false
  | .range a b => g.visibility.isReported = false ∧ g.minVisibility = a ∧ g.maxVisibility = b

/-- `HeightSays ws vertical m`: the words `ws` on clouds give the heights `m`; `vertical` says that it is the
vertical visibility. -/
inductive HeightSays : List Str → Bool → Measured → Prop
  | layer {t a h c k} : (t, a) ∈ amountNames → t ≠ c!"VV" → (∀ n ∈ h, n < 1000) → (c, k) ∈ convectiveNames →
      HeightSays [t ++ heightText h ++ c] false (.one (heightOf h))
  | vertical {h} : (∀ n ∈ h, n < 1000) → HeightSays [c!"VV" ++ heightText h] true (.one (heightOf h))
  | ceiling {n after} : n < 1000 → after.length ≤ 1 →
      HeightSays (c!"CIG" :: decimal 3 n :: after) false (.one ⟨.NONE, some (100 * n), .FEET⟩)
  | ceilingRange {n m after} : n < 1000 → m < 1000 → after.length ≤ 1 →
      HeightSays (c!"CIG" :: (decimal 3 n ++ 'V' :: decimal 3 m) :: after) false
        (.range ⟨.NONE, some (100 * n), .FEET⟩ ⟨.NONE, some (100 * m), .FEET⟩)
  | obscuration {s k t n} : (s, k) ∈ remarkObscurations → t ∈ [c!"FEW", c!"SCT", c!"BKN", c!"OVC"] → n < 1000 →
      HeightSays [s, t ++ decimal 3 n] false (.one ⟨.NONE, some (100 * n), .FEET⟩)
  | varying {t n w} : t ∈ [c!"FEW", c!"SCT", c!"BKN"] → n < 1000 →
      HeightSays [t ++ decimal 3 n, c!"V", w] false (.one ⟨.NONE, some (100 * n), .FEET⟩)
  | varyingOnly {t w} : t ∈ [c!"FEW", c!"SCT", c!"BKN"] → HeightSays [t, c!"V", w] false .nothing
  | none {s a} : (s, a) ∈ noClouds → HeightSays [s] false .nothing
  | missing : HeightSays [c!"CLD", c!"MISG"] false .nothing
  | noCeiling {after} : after.length ≤ 1 → HeightSays (c!"CHINO" :: after) false .nothing

/-- The accessors of a cloud group give this. -/
def HeightGives (g : CloudGroup) : Bool → Measured → Prop
  | false, .nothing => g.height.isReported = false ∧ g.minHeight.isReported = false ∧ g.maxHeight.isReported = false ∧
      g.verticalVisibility.isReported = false
  | false, .one d => g.height = d ∧ g.minHeight.isReported = false ∧ g.maxHeight.isReported = false ∧
      g.verticalVisibility.isReported = false
  | false, .range a b => g.height.isReported = false ∧ g.minHeight = a ∧ g.maxHeight = b ∧
      g.verticalVisibility.isReported = false
  | true, .one d => g.height.isReported = false ∧ g.minHeight.isReported = false ∧ g.maxHeight.isReported = false ∧
      g.verticalVisibility = d
  | true, _ => False

/-! ### Proofs -/

/-- Closes the statements on visibility. -/
local macro "vis_gives" "[" ts:Lean.Parser.Tactic.simpLemma,* "]" : tactic =>
  `(tactic| simp [VisibilityGives, VisibilityGroup.minVisibility, VisibilityGroup.maxVisibility,
      VisibilityGroup.visibility, VisibilityGroup.isVariable, reported_none, $ts,*])

theorem written_says {p : ReportPart} {ws : List Str} {g : VisibilityGroup} (h : Written p ws (.visibility g)) :
    ∃ m, VisibilitySays ws m ∧ VisibilityGives g m := by
  cases h with
  | visibility h =>
    rcases h with ⟨k, n, hk, hn, rfl, rfl⟩ | ⟨v, x, d, t, o, hv, hx, rfl, rfl⟩ | ⟨d, h, rfl⟩
    · exact ⟨_, .miles hk hn, by vis_gives []⟩
    · refine ⟨_, .meters hv hx, ?_⟩
      rcases hx with ⟨-, rfl, rfl⟩ | ⟨n, -, rfl, rfl⟩ | ⟨-, rfl, rfl⟩ | ⟨-, rfl, rfl⟩ <;> vis_gives []
    · exact ⟨_, .mileGroup h, by vis_gives []⟩
  | @runwayVisualRange v _ hok =>
    cases hm : v.max with
    | none => exact ⟨_, .runway hok hm, by vis_gives [RvrText.group, hm]⟩
    | some m => exact ⟨_, .runwayRange hok hm, by vis_gives [RvrText.group, hm]⟩
  | milesAndFraction hk hn hs _ => exact ⟨_, .milesAndFraction hk hn hs, by vis_gives []⟩

theorem amount_single {as : List Str} {k : AmountKind} {v x : Distance} (h : Amount as k v x) (hk : k.isRange = false) :
    x = {} := by
  cases h <;> first | rfl | cases hk

theorem visRemark_says {next : Str} {ws : List Str} {g : VisibilityGroup} (h : VisRemark ws g)
    (hl : ¬ Lacking next ws) : ∃ m, VisibilitySays ws m ∧ VisibilityGives g m := by
  have more : ¬ NeedsMore ws := fun h => hl (.visibility h)
  have both : ∀ {before after as : List Str} {k : AmountKind} {v x : Distance} {g : VisibilityGroup},
      AmountPlace before after → Amount as k v x → g.vis = v → g.visMax = x → g.isVariable = k.isRange →
      ∃ m, VisibilitySays (before ++ as ++ after) m ∧ VisibilityGives g m := by
    intro before after as k v x g hp ha hv hx hg
    cases hk : k.isRange with
    | true =>
      refine ⟨_, .remarkRange hp ha hk, ?_⟩
      rw [hk] at hg
      simp [VisibilityGives, VisibilityGroup.minVisibility, VisibilityGroup.maxVisibility, VisibilityGroup.visibility, hg,
        hv, hx, reported_none]
    | false =>
      refine ⟨_, .remark hp ha hk, ?_⟩
      rw [hk] at hg
      rw [amount_single ha hk] at hx
      simp [VisibilityGives, VisibilityGroup.minVisibility, VisibilityGroup.maxVisibility, VisibilityGroup.visibility, hg,
        hv, hx, reported_none]
  cases h with
  | vis => exact absurd .vis more
  | visMissing => exact ⟨_, .missing (by simp), by vis_gives []⟩
  | @visAmount as k v x h =>
    have := both (g := { visType := if k.isRange then .VARIABLE_PREVAILING else .PREVAILING, vis := v, visMax := x
                         incompleteText := match k with
                           | .whole => .VIS_INTEGER
                           | .part | .meters => .VIS_FRACTION_OR_METERS
                           | .rangeWhole => .VIS_VAR_MAX_INT
                           | .range => .VIS_VAR }) .all h rfl rfl
      (by cases k <;> rfl)
    rw [List.append_nil] at this
    exact this
  | @visAmountRunway as k v x s r h hr =>
    exact both (.runway hr) h rfl rfl (by cases k <;> rfl)
  | visWhere h => exact absurd (.place h) more
  | @visWhereAmount s d f t as k v x hw h hk =>
    have := both (g := { visType := if k.isRange then (if d.isSome then .VARIABLE_DIRECTIONAL else .VARIABLE_SECTOR)
                           else (if d.isSome then .DIRECTIONAL else .SECTOR)
                         vis := v, visMax := x, dir := d, dirSecFrom := f, dirSecTo := t
                         incompleteText := match k with
                           | .whole => .VIS_DIR_INTEGER
                           | .rangeWhole => .VIS_DIR_VAR_MAX_INT
                           | _ => .NONE }) (.direction hw) h rfl rfl
      (by cases k <;> cases d <;> rfl)
    rw [List.append_nil] at this
    exact this
  | observer h =>
    refine absurd (.observer ?_) more
    simp only [List.mem_cons, Prod.mk.injEq, List.not_mem_nil, or_false] at h ⊢
    exact h.imp And.left And.left
  | observerVis h =>
    refine absurd (.observerVis ?_) more
    simp only [List.mem_cons, Prod.mk.injEq, List.not_mem_nil, or_false] at h ⊢
    exact h.imp And.left And.left
  | @observerAmount w t as k v x h ha hk =>
    have hw : w ∈ [c!"SFC", c!"TWR"] := by
      simp only [List.mem_cons, Prod.mk.injEq, List.not_mem_nil, or_false] at h ⊢
      exact h.imp And.left And.left
    have := both (g := { visType := t, vis := v
                         incompleteText := if k = .whole then .SFC_OR_TWR_VIS_INTEGER else .NONE })
      (.observer hw) ha rfl (amount_single ha hk).symm (by
        simp only [List.mem_cons, Prod.mk.injEq, List.not_mem_nil, or_false] at h
        rw [hk]
        rcases h with ⟨-, rfl⟩ | ⟨-, rfl⟩ <;> rfl)
    rw [List.append_nil] at this
    exact this
  | rvrno => exact ⟨_, .missing (by simp), by vis_gives []⟩
  | rvr => exact ⟨_, .missing (by simp), by vis_gives []⟩
  | rvrMissing => exact ⟨_, .missing (by simp), by vis_gives []⟩
  | visno => exact ⟨_, .missing (by simp), by vis_gives []⟩
  | visnoRunway => exact ⟨_, .notHere, by vis_gives []⟩
  | visnoWhere => exact ⟨_, .notHere, by vis_gives []⟩

/-- Closes the statements on heights. -/
local macro "height_gives" "[" ts:Lean.Parser.Tactic.simpLemma,* "]" : tactic =>
  `(tactic| simp [HeightGives, CloudGroup.height, CloudGroup.minHeight, CloudGroup.maxHeight,
      CloudGroup.verticalVisibility, CloudGroup.heightNotReported, reported_none, hundreds, $ts,*])

theorem writtenCloud_says {p : ReportPart} {ws : List Str} {g : CloudGroup} (h : Written p ws (.cloud g)) :
    ∃ v m, HeightSays ws v m ∧ HeightGives g v m := by
  cases h with
  | noClouds h => exact ⟨_, _, .none h, by height_gives []⟩
  | cloud h =>
    obtain ⟨t, a, h, ct, c, ha, hh, hc, ho, rfl, rfl⟩ := h
    by_cases hv : t = c!"VV"
    · subst hv
      have : a = .OBSCURED := by
        simp only [amountNames, List.mem_cons, Prod.mk.injEq, List.not_mem_nil, or_false] at ha
        rcases ha with ⟨h, -⟩ | ⟨h, -⟩ | ⟨h, -⟩ | ⟨h, -⟩ | ⟨-, h⟩ | ⟨h, -⟩
        all_goals first | exact h | exact absurd h (by decide)
      subst this
      have hc' := ho rfl
      subst hc'
      have : ct = [] := by
        simp only [convectiveNames, List.mem_cons, Prod.mk.injEq, List.not_mem_nil, or_false] at hc
        rcases hc with ⟨h, -⟩ | ⟨-, h⟩ | ⟨-, h⟩ | ⟨-, h⟩
        all_goals first | exact h | cases h
      subst this
      refine ⟨true, .one (heightOf h), ?_, ?_⟩
      · rw [List.append_nil]
        exact .vertical hh
      · height_gives []
    · have : a ≠ .OBSCURED := by
        rintro rfl
        simp only [amountNames, List.mem_cons, Prod.mk.injEq, List.not_mem_nil, or_false] at ha
        rcases ha with ⟨-, h⟩ | ⟨-, h⟩ | ⟨-, h⟩ | ⟨-, h⟩ | ⟨h, -⟩ | ⟨-, h⟩
        all_goals first | exact hv h | cases h
      exact ⟨_, _, .layer ha hv hh hc, by height_gives [this]⟩

theorem cloudRemark_says {next : Str} {ws : List Str} {g : CloudGroup} (h : CloudRemark ws g)
    (hl : ¬ Lacking next ws) : ∃ v m, HeightSays ws v m ∧ HeightGives g v m := by
  have more : ¬ CloudNeedsMore ws := fun h => hl (.cloud h)
  cases h with
  | clouds => exact absurd .clouds more
  | missing => exact ⟨_, _, .missing, by height_gives []⟩
  | ceiling => exact absurd .ceiling more
  | ceilingHeight h =>
    cases h with
    | height h => exact ⟨_, _, .ceiling h (by simp), by height_gives []⟩
    | range h h' => exact ⟨_, _, .ceilingRange h h' (by simp), by height_gives []⟩
  | ceilingPlace h hp =>
    cases h with
    | height h => exact ⟨_, _, .ceiling h (by simp), by height_gives []⟩
    | range h h' => exact ⟨_, _, .ceilingRange h h' (by simp), by height_gives []⟩
  | noCeiling => exact ⟨_, _, .noCeiling (after := []) (by simp), by height_gives []⟩
  | noCeilingPlace hp => exact ⟨_, _, .noCeiling (after := [_]) (by simp), by height_gives []⟩
  | obscuration h => exact absurd (.obscuration h) more
  | @obscurationAmount s k w a n h ha =>
    obtain ⟨t, ha, hn, rfl⟩ := ha
    refine ⟨_, _, .obscuration (t := t) h ?_ (hn n rfl), by height_gives []⟩
    simp only [List.mem_cons, Prod.mk.injEq, List.not_mem_nil, or_false] at ha ⊢
    exact ha.imp And.left fun ha => ha.imp And.left fun ha => ha.imp And.left And.left
  | amount h => exact absurd (.amount h) more
  | amountV h => exact absurd (.amountV h) more
  | @varying s a h w b ha hv =>
    obtain ⟨t, ha, hn, rfl⟩ := ha
    have ht : t ∈ [c!"FEW", c!"SCT", c!"BKN"] := by
      simp only [List.mem_cons, Prod.mk.injEq, List.not_mem_nil, or_false, variableAmounts] at ha hv ⊢
      rcases ha with ⟨rfl, rfl⟩ | ⟨rfl, rfl⟩ | ⟨rfl, rfl⟩ | ⟨rfl, rfl⟩
      · exact Or.inl rfl
      · exact Or.inr (Or.inl rfl)
      · exact Or.inr (Or.inr rfl)
      · simp at hv
    cases h with
    | none =>
      refine ⟨false, .nothing, ?_, by height_gives []⟩
      simp only [Option.map_none, Option.getD_none, List.append_nil]
      exact .varyingOnly ht
    | some n => exact ⟨false, _, .varying (t := t) ht (hn n rfl), by height_gives []⟩

/-! ### Claims -/

/-- C76. The distances which the accessors of a visibility group give are the ones its text says: a single
value, or a minimum and a maximum, or none. -/
theorem C76_values (report : Str) (limit : Nat) (r : ParseResult) (h : Result report limit r) :
    ∀ x ∈ r.groups, ∀ g, x.group = .visibility g →
      ∃ m, VisibilitySays (words x.rawString) m ∧ VisibilityGives g m := by
  intro x hx g hg
  cases C75_said h x hx with
  | unknown => cases hg
  | header hw => cases hg; cases hw
  | afterNil => cases hg
  | body _ hw => cases hg; exact written_says hw
  | @remark s g' next hr hl =>
    cases g' <;> simp only [settled] at hg <;> cases hg
    obtain ⟨m, h1, h2⟩ := visRemark_says (visibility_remark hr) hl
    refine ⟨m, h1, ?_⟩
    cases m <;> exact h2
  | remnant => cases hg

/-- C77. The heights which the accessors of a cloud group give are the ones its text says: a single height,
the vertical visibility, a minimum and a maximum, or none. -/
theorem C77_values (report : Str) (limit : Nat) (r : ParseResult) (h : Result report limit r) :
    ∀ x ∈ r.groups, ∀ g, x.group = .cloud g →
      ∃ v m, HeightSays (words x.rawString) v m ∧ HeightGives g v m := by
  intro x hx g hg
  cases C75_said h x hx with
  | unknown => cases hg
  | header hw => cases hg; cases hw
  | afterNil => cases hg
  | body _ hw => cases hg; exact writtenCloud_says hw
  | @remark s g' next hr hl =>
    cases g' <;> simp only [settled] at hg <;> cases hg
    obtain ⟨v, m, h1, h2⟩ := cloudRemark_says (cloud_remark hr) hl
    refine ⟨v, m, h1, ?_⟩
    cases v <;> cases m <;> exact h2
  | remnant => cases hg

end Metaf.Props

namespace Metaf.Props

open Metaf Metaf.Spec

section
attribute [local instance] ieee

/-- `CIG 005V010 RWY04` says a range, and this range is given. -/
example : HeightSays [c!"CIG", c!"005V010", c!"RWY04"] false
      (.range ⟨.NONE, some 500, .FEET⟩ ⟨.NONE, some 1000, .FEET⟩) ∧
    HeightGives { tp := .VARIABLE_CEILING, heightOrVertVis := hundreds 5, maxHt := hundreds 10 } false
      (.range ⟨.NONE, some 500, .FEET⟩ ⟨.NONE, some 1000, .FEET⟩) ∧
    ¬ HeightGives { tp := .VARIABLE_CEILING, heightOrVertVis := hundreds 5, maxHt := hundreds 10 } false
      (.range ⟨.NONE, some 500, .FEET⟩ ⟨.NONE, some 500, .FEET⟩) := by
  refine ⟨.ceilingRange (n := 5) (m := 10) (after := [c!"RWY04"]) (by decide) (by decide) (by simp), ?_, ?_⟩
  · exact ⟨by decide, rfl, rfl, by decide⟩
  · rintro ⟨-, -, h, -⟩
    cases h

/-- `R04/0800V1200U` says a range, and this range is given. -/
example : ∃ v : RvrText, v.Ok ∧ v.text = c!"R04/0800V1200U" ∧
    VisibilitySays [v.text] (.range ⟨.NONE, some 800, .METERS⟩ ⟨.NONE, some 1200, .METERS⟩) ∧
    VisibilityGives v.group (.range ⟨.NONE, some 800, .METERS⟩ ⟨.NONE, some 1200, .METERS⟩) := by
  have hok : (RvrText.mk (some ⟨4, .NONE⟩) (some (.exact, 800)) (some (.exact, 1200)) false false .UPWARD).Ok := by decide
  exact ⟨_, hok, by decide, .runwayRange hok rfl, by decide, rfl, rfl⟩

set_option maxRecDepth 4000 in
/-- A report with groups of both kinds. -/
example : ∃ r, Result c!"METAR ULLI 112330Z 24005MPS R04/0800V1200U VV010 RMK CIG 005V010 RWY04" 100 r ∧
    (r.groups.filter fun x => x.group.ctorIdx = 5 ∨ x.group.ctorIdx = 6).length = 3 := by
  refine ⟨{ reportMetadata := _, groups := _ }, rfl, ?_⟩
  decide +kernel

end

end Metaf.Props

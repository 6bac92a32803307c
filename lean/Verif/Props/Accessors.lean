import Verif.Props.AnyReport

/-!
C76, C77: what the accessors of a visibility or cloud group give, depending on its type, for every
group of the result of parsing any text at all.
-/

set_option linter.unusedSectionVars false

namespace Metaf.Props

open Metaf Metaf.Spec

variable [FloatIeee]

/-! ### Specification -/

/-- The types for which visibility is given as a minimum and a maximum. -/
def variableTypes : List VisibilityType :=
  [.VARIABLE_PREVAILING, .VARIABLE_DIRECTIONAL, .VARIABLE_RUNWAY, .VARIABLE_RVR, .VARIABLE_SECTOR]

/-- What the accessors of a visibility group give. -/
structure VisibilityOffers (g : VisibilityGroup) : Prop where
  /-- The range is given for variable visibility only. -/
  single : g.visType ∉ variableTypes → g.minVisibility.isReported = false ∧ g.maxVisibility.isReported = false
  /-- One value is not given for variable visibility, the maximum always is. -/
  range : g.visType ∈ variableTypes → g.visibility.isReported = false ∧ g.maxVisibility.isReported = true
  /-- So is the minimum, unless it is a runway visual range which has not been measured. -/
  minimum : g.visType ∈ variableTypes → g.visType ≠ .VARIABLE_RVR → g.minVisibility.isReported = true
  /-- The value is always given for these types. -/
  value : g.visType ∈ [.SURFACE, .TOWER, .RUNWAY, .SECTOR] → g.visibility.isReported = true
  /-- There is no value when the data are said to be missing. -/
  missing : g.visType ∈ [.VIS_MISG, .RVR_MISG, .RVRNO, .VISNO] → g.visibility.isReported = false
  /-- A runway is given for these types only, -/
  runway : g.rw.isSome = true → g.visType ∈ [.RUNWAY, .VARIABLE_RUNWAY, .RVR, .VARIABLE_RVR, .VISNO]
  /-- for visibility along the runway always, -/
  ofRunway : g.visType ∈ [.RUNWAY, .VARIABLE_RUNWAY] → g.rw.isSome = true
  /-- and for a runway visual range which has been measured. -/
  ofRange : g.visType ∈ [.RVR, .VARIABLE_RVR] → g.rw = none →
    g.visibility.isReported = false ∧ g.minVisibility.isReported = false
  /-- A direction is given for these types only, -/
  direction : g.dir.isSome = true → g.visType ∈ [.PREVAILING_NDV, .DIRECTIONAL, .VARIABLE_DIRECTIONAL, .VISNO]
  /-- for directional visibility always, -/
  ofDirection : g.visType ∈ [.DIRECTIONAL, .VARIABLE_DIRECTIONAL] → g.dir.isSome = true
  /-- and that there are no directional variations when the type says so. -/
  ndv : g.visType = .PREVAILING_NDV → g.dir = some ⟨0, .NDV⟩
  /-- The directions of a sector can always be listed. There are some for these types only, and always
  for visibility in a sector; no direction is listed twice. -/
  sector : ∃ v, (∀ fuel, 8 ≤ fuel → g.sectorDirections fuel = some v) ∧ (v.map (·.cardinal)).Nodup ∧
    (v ≠ [] → g.visType ∈ [.SECTOR, .VARIABLE_SECTOR, .VISNO]) ∧
    (g.visType ∈ [.SECTOR, .VARIABLE_SECTOR] → v ≠ []) ∧
    (v ≠ [] → g.rw = none ∧ g.dir = none)
  /-- Visibility is not both for a runway and in a direction. -/
  onePlace : g.rw = none ∨ g.dir = none
  /-- A trend is given for runway visual range only. -/
  trend : g.rvrTrend ≠ .NONE → g.visType ∈ [.RVR, .VARIABLE_RVR]

/-- What the accessors of a cloud group give. -/
structure CloudOffers (g : CloudGroup) : Prop where
  /-- No clouds: how this is known. -/
  noClouds : g.tp = .NO_CLOUDS ↔ g.amnt ∈ [.NONE_CLR, .NONE_SKC, .NCD, .NSC]
  /-- The sky is obscured: vertical visibility instead of an amount. -/
  obscured : g.tp = .VERTICAL_VISIBILITY ↔ g.amnt = .OBSCURED
  /-- Amount of clouds or of what obscures the sky. -/
  amount : g.amnt ≠ .NOT_REPORTED →
    g.tp ∈ [.NO_CLOUDS, .CLOUD_LAYER, .VERTICAL_VISIBILITY, .OBSCURATION]
  /-- The height is given for these types only, -/
  height : g.height.isReported = true → g.tp ∈ [.CLOUD_LAYER, .CEILING, .OBSCURATION]
  /-- for a ceiling and what obscures the sky always. -/
  ofHeight : g.tp ∈ [.CEILING, .OBSCURATION] → g.height.isReported = true
  /-- Both heights are given for variable ceiling, and neither otherwise. -/
  heights : (g.tp = .VARIABLE_CEILING ↔ g.minHeight.isReported = true) ∧
    (g.tp = .VARIABLE_CEILING ↔ g.maxHeight.isReported = true)
  /-- Vertical visibility is given only if the sky is obscured. -/
  vertical : g.verticalVisibility.isReported = true → g.tp = .VERTICAL_VISIBILITY
  /-- All heights given are in feet. -/
  feet : (g.height.isReported = true → g.height.distUnit = .FEET) ∧
    (g.minHeight.isReported = true → g.minHeight.distUnit = .FEET) ∧
    (g.maxHeight.isReported = true → g.maxHeight.distUnit = .FEET) ∧
    (g.verticalVisibility.isReported = true → g.verticalVisibility.distUnit = .FEET)
  /-- Convective clouds are given for layers only. -/
  convective : g.convtype ≠ .NONE → g.tp = .CLOUD_LAYER
  /-- A place is given for ceilings only, and it is a runway or a direction. -/
  place : g.rw.isSome = true ∨ g.dir.isSome = true → g.tp ∈ [.CEILING, .VARIABLE_CEILING, .CHINO]
  onePlace : g.rw = none ∨ g.dir = none
  /-- The type, base and largest extent of the clouds are given just for these types, the base being the
  least height and the extent the largest which the amount allows. -/
  cloudType : g.cloudType.isSome = true ↔ g.tp ∈ [.CLOUD_LAYER, .CEILING, .VARIABLE_CEILING, .OBSCURATION]
  layer : ∀ t ∈ g.cloudType, t.okt = maxOkta g.amnt ∧
    t.ht = (if g.tp = .VARIABLE_CEILING then g.minHeight else g.height)
  /-- What obscures the sky is always known; clouds are cumulonimbus or towering cumulus if they are of
  any type. -/
  obscuration : ∀ t ∈ g.cloudType, if g.tp = .OBSCURATION then ∃ w, (w, t.tp) ∈ remarkObscurations
    else t.tp = match g.convtype with
      | .TOWERING_CUMULUS => .TOWERING_CUMULUS
      | .CUMULONIMBUS => .CUMULONIMBUS
      | _ => .NOT_REPORTED

/-! ### Parts of a visibility group -/

theorem reported_some (m : Modifier) (n : Nat) (u : DistanceUnit) :
    (⟨m, some n, u⟩ : Distance).isReported = true := rfl

theorem reported_none (u : DistanceUnit) : (⟨.NONE, none, u⟩ : Distance).isReported = false := rfl

theorem minimum_reported {ws : List Str} {a : Str} {v : Distance} (h : Minimum ws a v) :
    v.isReported = true := by
  cases h <;> rfl

theorem meter_reported {w : Str} {d : Distance} (h : MeterWord w d) : d.isReported = true := by
  rcases h with ⟨-, rfl⟩ | ⟨n, -, -, rfl⟩ <;> rfl

theorem amount_reported {as : List Str} {k : AmountKind} {v x : Distance} (h : Amount as k v x) :
    v.isReported = true ∧ x.isReported = k.isRange := by
  cases h with
  | whole | part | mixed => exact ⟨rfl, rfl⟩
  | meters h => exact ⟨meter_reported h, rfl⟩
  | rangeWhole h | range h | rangeMixed h => exact ⟨minimum_reported h, rfl⟩
  | meterRange h1 h2 => exact ⟨meter_reported h1, meter_reported h2⟩

theorem no_sector (g : VisibilityGroup) (hf : g.dirSecFrom = none) (ht : g.dirSecTo = none) :
    ∀ fuel, g.sectorDirections fuel = some [] := by
  intro fuel
  simp only [VisibilityGroup.sectorDirections, hf, ht]
  rfl

theorem some_sector {x y : Str} {n m : Nat} (hn : (x, n) ∈ octantNames) (hm : (y, m) ∈ octantNames) :
    ∃ v, (∀ fuel, 8 ≤ fuel → Direction.sectorCardinalDirToVector fuel ⟨n, .VALUE_CARDINAL⟩ ⟨m, .VALUE_CARDINAL⟩ =
      some v) ∧ (v.map (·.cardinal)).Nodup ∧ v ≠ [] := by
  have le : ∀ {w k}, (w, k) ∈ octantNames → k ≤ 360 := by
    intro w k hk
    simp only [octantNames, List.mem_cons, Prod.mk.injEq, List.not_mem_nil, or_false] at hk
    omega
  obtain ⟨i, j, v, hi, hj, h1, h2, h3, h4, h5, -⟩ :=
    C35_sector_partial ⟨n, .VALUE_CARDINAL⟩ ⟨m, .VALUE_CARDINAL⟩ rfl rfl (le hn) (le hm)
  refine ⟨v, h3, h4 ▸ h5, ?_⟩
  rintro rfl
  have := congrArg List.length h4
  simp [sweep] at this

/-- What is the same for every group which is not for a sector. -/
theorem no_sector_offers {g : VisibilityGroup} (hf : g.dirSecFrom = none) (ht : g.dirSecTo = none)
    (hn : g.visType ∉ [VisibilityType.SECTOR, .VARIABLE_SECTOR]) :
    ∃ v, (∀ fuel, 8 ≤ fuel → g.sectorDirections fuel = some v) ∧ (v.map (·.cardinal)).Nodup ∧
    (v ≠ [] → g.visType ∈ [VisibilityType.SECTOR, .VARIABLE_SECTOR, .VISNO]) ∧
    (g.visType ∈ [VisibilityType.SECTOR, .VARIABLE_SECTOR] → v ≠ []) ∧
    (v ≠ [] → g.rw = none ∧ g.dir = none) :=
  ⟨[], fun fuel _ => no_sector g hf ht fuel, by simp, by simp, fun h => absurd h hn, by simp⟩

/-- The same, but for the text expected next. -/
theorem VisibilityOffers.settled {g : VisibilityGroup} (h : VisibilityOffers g) :
    VisibilityOffers { g with incompleteText := .NONE } :=
  ⟨h.1, h.2, h.3, h.4, h.5, h.6, h.7, h.8, h.9, h.10, h.11, h.12, h.13, h.14⟩

theorem CloudOffers.settled {g : CloudGroup} (h : CloudOffers g) :
    CloudOffers { g with incompleteText := .NONE } :=
  ⟨h.1, h.2, h.3, h.4, h.5, h.6, h.7, h.8, h.9, h.10, h.11, h.12, h.13, h.14⟩

/-! ### Visibility -/

/-- Closes the parts of `VisibilityOffers` for a group without a sector. -/
local macro "offers" "[" ts:Lean.Parser.Tactic.simpLemma,* "]" : tactic =>
  `(tactic| (
    refine ⟨?_, ?_, ?_, ?_, ?_, ?_, ?_, ?_, ?_, ?_, ?_, no_sector_offers rfl rfl ?_, ?_, ?_⟩ <;>
    simp [variableTypes, VisibilityGroup.minVisibility, VisibilityGroup.maxVisibility, VisibilityGroup.visibility,
      VisibilityGroup.isVariable, reported_some, reported_none, $ts,*]))

theorem body_visibility {s : Str} {g : VisibilityGroup} (h : BodyVisibility s g) : VisibilityOffers g := by
  rcases h with ⟨k, n, -, -, -, rfl⟩ | ⟨v, x, d, t, o, -, hx, -, rfl⟩ | ⟨d, -, rfl⟩
  · offers []
  · rcases hx with ⟨-, rfl, rfl⟩ | ⟨n, -, rfl, rfl⟩ | ⟨-, rfl, rfl⟩ | ⟨-, rfl, rfl⟩
    · offers []
    · offers []
    · offers []
    · offers []
  · offers []

theorem range_visibility (v : RvrText) (hok : v.Ok) : VisibilityOffers v.group := by
  obtain ⟨-, -, -, -, -, hn⟩ := hok
  obtain ⟨r, val, max, feet, sep, tr⟩ := v
  cases max with
  | none =>
    cases r with
    | none =>
      obtain ⟨rfl, -⟩ := hn rfl
      offers [RvrText.group, RvrText.distance]
    | some r => offers [RvrText.group, RvrText.distance]
  | some m =>
    cases r with
    | none =>
      obtain ⟨rfl, -⟩ := hn rfl
      offers [RvrText.group, RvrText.distance]
    | some r => offers [RvrText.group, RvrText.distance]

theorem written_visibility {p : ReportPart} {ws : List Str} {g : VisibilityGroup}
    (h : Written p ws (.visibility g)) : VisibilityOffers g := by
  cases h with
  | visibility h => exact body_visibility h
  | runwayVisualRange _ hok => exact range_visibility _ hok
  | milesAndFraction => offers []

theorem remark_visibility {next : Str} {ws : List Str} {g : VisibilityGroup} (h : VisRemark ws g)
    (hl : ¬ Lacking next ws) : VisibilityOffers g := by
  have more : ¬ NeedsMore ws := fun h => hl (.visibility h)
  cases h with
  | vis => exact absurd .vis more
  | visMissing => offers []
  | @visAmount as k v x h =>
    have hk : k.isRange = true := by
      by_contra hk
      exact more (.amount h (by simpa using hk))
    obtain ⟨h1, h2⟩ := amount_reported h
    rw [hk] at h2
    rw [hk]
    offers [h1, h2]
  | @visAmountRunway as k v x s r h hr =>
    obtain ⟨h1, h2⟩ := amount_reported h
    cases hk : k.isRange <;> rw [hk] at h2 <;> offers [h1, h2]
  | visWhere h => exact absurd (.place h) more
  | @visWhereAmount s d f t as k v x hw h hk =>
    obtain ⟨h1, h2⟩ := amount_reported h
    cases hw with
    | octant => cases hk : k.isRange <;> rw [hk] at h2 <;> offers [h1, h2]
    | ndv => cases hk : k.isRange <;> rw [hk] at h2 <;> offers [h1, h2]
    | sector hn hm =>
      obtain ⟨w, e, hd, hne⟩ := some_sector hn hm
      cases hk : k.isRange <;> rw [hk] at h2 <;>
      refine ⟨?_, ?_, ?_, ?_, ?_, ?_, ?_, ?_, ?_, ?_, ?_, ⟨w, e, hd, ?_, fun _ => hne, ?_⟩, ?_, ?_⟩ <;>
      simp [variableTypes, VisibilityGroup.minVisibility, VisibilityGroup.maxVisibility, VisibilityGroup.visibility,
        VisibilityGroup.isVariable, reported_none, h1, h2]
  | observer h =>
    refine absurd (.observer ?_) more
    simp only [List.mem_cons, Prod.mk.injEq, List.not_mem_nil, or_false] at h ⊢
    exact h.imp And.left And.left
  | observerVis h =>
    refine absurd (.observerVis ?_) more
    simp only [List.mem_cons, Prod.mk.injEq, List.not_mem_nil, or_false] at h ⊢
    exact h.imp And.left And.left
  | @observerAmount w t as k v x h ha hk =>
    obtain ⟨h1, -⟩ := amount_reported ha
    simp only [List.mem_cons, Prod.mk.injEq, List.not_mem_nil, or_false] at h
    rcases h with ⟨-, rfl⟩ | ⟨-, rfl⟩ <;> offers [h1]
  | rvrno => offers []
  | rvr => offers []
  | rvrMissing => offers []
  | visno => offers []
  | visnoRunway => offers []
  | visnoWhere hw =>
    cases hw with
    | octant => offers []
    | ndv => offers []
    | sector hn hm =>
      obtain ⟨w, e, hd, hne⟩ := some_sector hn hm
      refine ⟨?_, ?_, ?_, ?_, ?_, ?_, ?_, ?_, ?_, ?_, ?_, ⟨w, e, hd, ?_, fun _ => hne, ?_⟩, ?_, ?_⟩ <;>
      simp [variableTypes, VisibilityGroup.minVisibility, VisibilityGroup.maxVisibility, VisibilityGroup.visibility,
        VisibilityGroup.isVariable, reported_none]

/-! ### Clouds -/

/-- Closes the parts of `CloudOffers`. -/
local macro "cloud_offers" "[" ts:Lean.Parser.Tactic.simpLemma,* "]" : tactic =>
  `(tactic| (
    constructor <;>
    simp [CloudGroup.height, CloudGroup.minHeight, CloudGroup.maxHeight, CloudGroup.verticalVisibility,
      CloudGroup.heightNotReported, CloudGroup.cloudType, CloudGroup.convectiveTypeToCloudTypeType,
      CloudGroup.amountToMaxOkta, maxOkta, reported_some, reported_none, hundreds, heightOf, $ts,*]))

theorem layer_offers {s : Str} {g : CloudGroup} (h : LayerGroup s g) : CloudOffers g := by
  obtain ⟨at_, a, h, ct, c, ha, -, hc, ho, -, rfl⟩ := h
  simp only [amountNames, List.mem_cons, Prod.mk.injEq, List.not_mem_nil, or_false] at ha
  rcases ha with ⟨-, rfl⟩ | ⟨-, rfl⟩ | ⟨-, rfl⟩ | ⟨-, rfl⟩ | ⟨-, rfl⟩ | ⟨-, rfl⟩
  case inr.inr.inr.inr.inl =>
    obtain rfl := ho rfl
    cases h <;> cloud_offers []
  all_goals cases h <;> cases c <;> cloud_offers []

theorem written_cloud {p : ReportPart} {ws : List Str} {g : CloudGroup}
    (h : Written p ws (.cloud g)) : CloudOffers g := by
  cases h with
  | noClouds h =>
    simp only [noClouds, List.mem_cons, Prod.mk.injEq, List.not_mem_nil, or_false] at h
    rcases h with ⟨-, rfl⟩ | ⟨-, rfl⟩ | ⟨-, rfl⟩ | ⟨-, rfl⟩ <;> cloud_offers []
  | cloud h => exact layer_offers h

theorem remark_cloud {next : Str} {ws : List Str} {g : CloudGroup} (h : CloudRemark ws g)
    (hl : ¬ Lacking next ws) : CloudOffers g := by
  have more : ¬ CloudNeedsMore ws := fun h => hl (.cloud h)
  cases h with
  | clouds => exact absurd .clouds more
  | missing => cloud_offers []
  | ceiling => exact absurd .ceiling more
  | ceilingHeight h => cases h <;> cloud_offers []
  | ceilingPlace h hp => cases h <;> cases hp <;> cloud_offers []
  | noCeiling => cloud_offers []
  | noCeilingPlace hp => cases hp <;> cloud_offers []
  | obscuration h => exact absurd (.obscuration h) more
  | @obscurationAmount s k w a n h ha =>
    obtain ⟨t, ha, -, -⟩ := ha
    simp only [List.mem_cons, Prod.mk.injEq, List.not_mem_nil, or_false] at ha
    rcases ha with ⟨-, rfl⟩ | ⟨-, rfl⟩ | ⟨-, rfl⟩ | ⟨-, rfl⟩ <;> cloud_offers [(⟨s, h⟩ : ∃ w, (w, k) ∈ remarkObscurations)]
  | amount h => exact absurd (.amount h) more
  | amountV h => exact absurd (.amountV h) more
  | @varying s a h w b _ hv =>
    simp only [variableAmounts, List.mem_cons, Prod.mk.injEq, List.not_mem_nil, or_false] at hv
    rcases hv with ⟨-, -, rfl⟩ | ⟨-, -, rfl⟩ | ⟨-, -, rfl⟩ <;> cases h <;> cloud_offers []

/-! ### Claims -/

theorem visibility_remark {now : Option Nat} {ws : List Str} {g : VisibilityGroup}
    (h : Remark now ws (.visibility g)) : VisRemark ws g := by
  generalize hv : Group.visibility g = v at h
  cases h with
  | visibility hr => cases hv; exact hr
  | fixed h => simp [fixedWords, ← hv] at h
  | missing h => simp [missingWords, ← hv] at h
  | missingSaid h => simp [missingWords, ← hv] at h
  | _ => cases hv

theorem cloud_remark {now : Option Nat} {ws : List Str} {g : CloudGroup}
    (h : Remark now ws (.cloud g)) : CloudRemark ws g := by
  generalize hv : Group.cloud g = v at h
  cases h with
  | cloud hr => cases hv; exact hr
  | fixed h => simp [fixedWords, ← hv] at h
  | missing h => simp [missingWords, ← hv] at h
  | missingSaid h => simp [missingWords, ← hv] at h
  | _ => cases hv

/-- C76. For every visibility group of every result, the type tells which accessors give what. -/
theorem C76_visibility (report : Str) (limit : Nat) (r : ParseResult) (h : Result report limit r) :
    ∀ x ∈ r.groups, ∀ g, x.group = .visibility g → VisibilityOffers g := by
  intro x hx g hg
  cases C75_said h x hx with
  | unknown => cases hg
  | header hw => cases hg; cases hw
  | afterNil => cases hg
  | body _ hw => cases hg; exact written_visibility hw
  | @remark s g' next hr hl =>
    cases g' <;> simp only [settled] at hg <;> cases hg
    exact (remark_visibility (visibility_remark hr) hl).settled
  | remnant => cases hg

/-- C77. For every cloud group of every result, the type tells which accessors give what. -/
theorem C77_clouds (report : Str) (limit : Nat) (r : ParseResult) (h : Result report limit r) :
    ∀ x ∈ r.groups, ∀ g, x.group = .cloud g → CloudOffers g := by
  intro x hx g hg
  cases C75_said h x hx with
  | unknown => cases hg
  | header hw => cases hg; cases hw
  | afterNil => cases hg
  | body _ hw => cases hg; exact written_cloud hw
  | @remark s g' next hr hl =>
    cases g' <;> simp only [settled] at hg <;> cases hg
    exact (remark_cloud (cloud_remark hr) hl).settled
  | remnant => cases hg

end Metaf.Props

/-! ### Cases -/

namespace Metaf.Props

open Metaf Metaf.Spec

section
attribute [local instance] ieee

set_option maxRecDepth 4000 in
/-- Visibility and clouds of several types in one report: the type and what the accessors give. -/
example : ∃ r, Result c!"METAR ULLI 112330Z 24005MPS 1200NE R04/0800V1200U BKN010CB RMK VIS NE-SE 1V2 CIG 005V010 RWY04" 100 r ∧
    (r.groups.filterMap fun x => match x.group with
      | .visibility g => some (g.visType, g.visibility.dist, g.minVisibility.dist, g.maxVisibility.dist,
          (g.sectorDirections 8).map (·.map (·.cardinal)))
      | _ => none) =
      [(.DIRECTIONAL, some 1200, none, none, some []), (.VARIABLE_RVR, none, some 800, some 1200, some []),
       (.VARIABLE_SECTOR, none, some 10000, some 20000, some [.NE, .E, .SE])] ∧
    (r.groups.filterMap fun x => match x.group with
      | .cloud g => some (g.tp, g.height.dist, g.minHeight.dist, g.maxHeight.dist, g.rw.isSome)
      | _ => none) =
      [(.CLOUD_LAYER, some 1000, none, none, false), (.VARIABLE_CEILING, none, some 500, some 1000, true)] ∧
    (∀ x ∈ r.groups, ∀ g, x.group = .visibility g → VisibilityOffers g) ∧
    ∀ x ∈ r.groups, ∀ g, x.group = .cloud g → CloudOffers g := by
  obtain ⟨r, hr, -⟩ := C01_parse_total
    c!"METAR ULLI 112330Z 24005MPS 1200NE R04/0800V1200U BKN010CB RMK VIS NE-SE 1V2 CIG 005V010 RWY04" 100
  have h : ((Parser.parse
      c!"METAR ULLI 112330Z 24005MPS 1200NE R04/0800V1200U BKN010CB RMK VIS NE-SE 1V2 CIG 005V010 RWY04" 100).toOption.map fun r =>
    (r.groups.filterMap fun x => match x.group with
      | .visibility g => some (g.visType, g.visibility.dist, g.minVisibility.dist, g.maxVisibility.dist,
          (g.sectorDirections 8).map (·.map (·.cardinal)))
      | _ => none,
     r.groups.filterMap fun x => match x.group with
      | .cloud g => some (g.tp, g.height.dist, g.minHeight.dist, g.maxHeight.dist, g.rw.isSome)
      | _ => none)) = some
      ([(.DIRECTIONAL, some 1200, none, none, some []), (.VARIABLE_RVR, none, some 800, some 1200, some []),
        (.VARIABLE_SECTOR, none, some 10000, some 20000, some [.NE, .E, .SE])],
       [(.CLOUD_LAYER, some 1000, none, none, false), (.VARIABLE_CEILING, none, some 500, some 1000, true)]) := by
    kernel_rfl
  rw [hr] at h
  simp only [Except.toOption, Option.map_some, Option.some.injEq, Prod.mk.injEq] at h
  exact ⟨r, hr, h.1, h.2, C76_visibility _ _ _ hr, C77_clouds _ _ _ hr⟩

end

end Metaf.Props

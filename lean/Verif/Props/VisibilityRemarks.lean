import Verif.Props.VisibilityWords
import Verif.Props.Conversion

/-!
C64: remarks on visibility, made of several texts.
-/

namespace Metaf.Props

set_option linter.unusedSectionVars false

open Metaf Metaf.Spec Metaf.VisibilityGroup

variable [FloatSem]

/-! ### Specification -/

/-- What is given for the visibility. -/
inductive AmountKind
  | whole | part | meters | rangeWhole | range
  deriving DecidableEq, Repr

/-- Whether a minimum and a maximum are given. -/
def AmountKind.isRange : AmountKind → Bool
  | .rangeWhole | .range => true
  | _ => false

/-- The minimum of a range in miles: the texts before the last one, and the beginning of the last one,
and the distance. The fraction of a mixed number is a text of its own. -/
inductive Minimum : List Str → Str → Distance → Prop
  | plain {a m q} : MileWord a m q → Minimum [] a (mileDistance m q)
  | mixed {w m p a q} : WholeWord w m p → PartWord a .NONE q → ¬ IsWhole q →
      Minimum [w] a (mileDistance m (p + q))

/-- The texts which give visibility: the distance (or minimum) and the maximum. -/
inductive Amount : List Str → AmountKind → Distance → Distance → Prop
  | whole {w m q} : WholeWord w m q → Amount [w] .whole (mileDistance m q) {}
  | part {w m q} : PartWord w m q → Amount [w] .part (mileDistance m q) {}
  | mixed {w m p f q} : WholeWord w m p → PartWord f .NONE q → ¬ IsWhole q →
      Amount [w, f] .part (mileDistance m (p + q)) {}
  | meters {w d} : MeterWord w d → Amount [w] .meters d {}
  | rangeWhole {ws a v b m q} : Minimum ws a v → WholeWord b m q →
      Amount (ws ++ [a ++ 'V' :: b]) .rangeWhole v (mileDistance m q)
  | range {ws a v b m q} : Minimum ws a v → PartWord b m q →
      Amount (ws ++ [a ++ 'V' :: b]) .range v (mileDistance m q)
  | rangeMixed {ws a v b m p f q} : Minimum ws a v → WholeWord b m p → FractionWord f q →
      Amount (ws ++ [a ++ 'V' :: b, f]) .range v (mileDistance m (p + q))
  | meterRange {a b d e} : MeterWord a d → MeterWord b e → Amount [a ++ 'V' :: b] .range d e

/-- The sequences of texts which are a remark on visibility, and the group. A sequence is complete if
`incompleteText` is `NONE`. -/
inductive VisRemark : List Str → VisibilityGroup → Prop
  | vis : VisRemark [c!"VIS"] { visType := .PREVAILING, incompleteText := .VIS }
  | visMissing : VisRemark [c!"VIS", c!"MISG"] { visType := .VIS_MISG }
  | visAmount {as k v x} : Amount as k v x →
      VisRemark (c!"VIS" :: as)
        { visType := if k.isRange then .VARIABLE_PREVAILING else .PREVAILING, vis := v, visMax := x
          incompleteText := match k with
            | .whole => .VIS_INTEGER
            | .part | .meters => .VIS_FRACTION_OR_METERS
            | .rangeWhole => .VIS_VAR_MAX_INT
            | .range => .VIS_VAR }
  | visAmountRunway {as k v x s r} : Amount as k v x → RunwayWord s r →
      VisRemark (c!"VIS" :: (as ++ [s]))
        { visType := if k.isRange then .VARIABLE_RUNWAY else .RUNWAY, vis := v, visMax := x
          rw := some r }
  | visWhere {s d f t} : WhereWord s d f t →
      VisRemark [c!"VIS", s]
        { visType := if d.isSome then .DIRECTIONAL else .SECTOR, dir := d, dirSecFrom := f, dirSecTo := t
          incompleteText := .VIS_DIR }
  | visWhereAmount {s d f t as k v x} : WhereWord s d f t → Amount as k v x → k ≠ .meters →
      VisRemark (c!"VIS" :: s :: as)
        { visType := if k.isRange then (if d.isSome then .VARIABLE_DIRECTIONAL else .VARIABLE_SECTOR)
            else (if d.isSome then .DIRECTIONAL else .SECTOR)
          vis := v, visMax := x, dir := d, dirSecFrom := f, dirSecTo := t
          incompleteText := match k with
            | .whole => .VIS_DIR_INTEGER
            | .rangeWhole => .VIS_DIR_VAR_MAX_INT
            | _ => .NONE }
  | observer {w t} : (w, t) ∈ [(c!"SFC", VisibilityType.SURFACE), (c!"TWR", .TOWER)] →
      VisRemark [w] { visType := t, incompleteText := .SFC_OR_TWR }
  | observerVis {w t} : (w, t) ∈ [(c!"SFC", VisibilityType.SURFACE), (c!"TWR", .TOWER)] →
      VisRemark [w, c!"VIS"] { visType := t, incompleteText := .SFC_OR_TWR_VIS }
  | observerAmount {w t as k v x} : (w, t) ∈ [(c!"SFC", VisibilityType.SURFACE), (c!"TWR", .TOWER)] →
      Amount as k v x → k.isRange = false →
      VisRemark (w :: c!"VIS" :: as)
        { visType := t, vis := v
          incompleteText := if k = .whole then .SFC_OR_TWR_VIS_INTEGER else .NONE }
  | rvrno : VisRemark [c!"RVRNO"] { visType := .RVRNO }
  | rvr : VisRemark [c!"RVR"] { visType := .RVR_MISG, incompleteText := .RVR }
  | rvrMissing : VisRemark [c!"RVR", c!"MISG"] { visType := .RVR_MISG }
  | visno : VisRemark [c!"VISNO"] { visType := .VISNO, incompleteText := .VISNO }
  | visnoRunway {s r} : RunwayWord s r → VisRemark [c!"VISNO", s] { visType := .VISNO, rw := some r }
  | visnoWhere {s d f t} : WhereWord s d f t →
      VisRemark [c!"VISNO", s] { visType := .VISNO, dir := d, dirSecFrom := f, dirSecTo := t }

/-! ### Trying readers in turn -/

theorem firstOf_of {g : VisibilityGroup} {o : VisibilityGroup × AppendResult}
    (ho : o.2 ≠ .APPENDED) {fs : List (VisibilityGroup → Option VisibilityGroup)} {g' : VisibilityGroup}
    (h : firstOf g o fs = (g', .APPENDED)) : ∃ f ∈ fs, f g = some g' := by
  induction fs with
  | nil => exact absurd (congrArg Prod.snd h) ho
  | cons f fs ih =>
    cases hf : f g with
    | some a =>
      simp only [firstOf, hf, Prod.mk.injEq, and_true] at h
      exact ⟨f, by simp, by rw [hf, h]⟩
    | none =>
      simp only [firstOf, hf] at h
      obtain ⟨f', hm, he⟩ := ih h
      exact ⟨f', by simp [hm], he⟩

/-- If texts of different kinds are taken, the order does not matter. -/
theorem firstOf_take {g : VisibilityGroup} {o : VisibilityGroup × AppendResult} {n : Nat}
    (fs : List ((VisibilityGroup → Option VisibilityGroup) × Nat)) (hd : (fs.map (·.2)).Nodup)
    (hs : ∀ x ∈ fs, ∀ g', x.1 g = some g' → n = x.2)
    {f : VisibilityGroup → Option VisibilityGroup} {g' : VisibilityGroup}
    (hf : (f, n) ∈ fs) (he : f g = some g') : firstOf g o (fs.map (·.1)) = (g', .APPENDED) := by
  induction fs with
  | nil => simp at hf
  | cons x fs ih =>
    obtain ⟨f', k⟩ := x
    simp only [List.map_cons, List.nodup_cons, List.mem_map, not_exists, not_and] at hd
    rcases List.mem_cons.mp hf with h | h
    · cases h
      simp [firstOf, he]
    · have hx : f' g = none := by
        cases hg : f' g with
        | none => rfl
        | some a =>
          have h1 : n = k := hs (f', k) (by simp) a hg
          exact absurd h1 (hd.1 _ h)
      simp only [List.map_cons, firstOf, hx]
      exact ih hd.2 (fun x hx => hs x (by simp [hx])) h

/-! ### From the code to the specification -/

theorem history_step {ws : List Str} {g g' : VisibilityGroup} {s : Str} (h : VisRemark ws g)
    (ha : VisibilityGroup.append g s = (g', .APPENDED)) : VisRemark (ws ++ [s]) g' := by
  cases h with
  | vis =>
    unfold VisibilityGroup.append at ha
    simp only at ha
    ite_cases ha
    · rename_i e; subst e
      cases ha; exact .visMissing
    · obtain ⟨f, hf, he⟩ := firstOf_of (by simp) ha
      simp only [List.mem_cons, List.not_mem_nil, or_false] at hf
      rcases hf with rfl | rfl | rfl | rfl | rfl | rfl
      · obtain ⟨d, f, t, hw, rfl⟩ := (appendDirection_iff _ _ rfl rfl rfl _ _).mp he
        exact .visWhere hw
      · obtain ⟨m, q, hw, rfl⟩ := (appendInteger_iff _ _ rfl _ _).mp he
        exact .visAmount (.whole hw)
      · obtain ⟨m, q, hw, rfl⟩ := (appendFraction_first _ _ rfl _ _).mp he
        exact .visAmount (.part hw)
      · obtain ⟨a, b, m, q, m', q', hw, hw', rfl, rfl⟩ := (appendVariable_first _ _ rfl _ _ _).mp he
        by_cases hb : '/' ∈ b
        · rw [if_pos hb]
          exact .visAmount (.range (.plain hw) ⟨hw', hb⟩)
        · rw [if_neg hb]
          exact .visAmount (.rangeWhole (.plain hw) ⟨hw', hb⟩)
      · obtain ⟨d, hw, rfl⟩ := (appendMeters_iff _ _ _ _).mp he
        exact .visAmount (.meters hw)
      · obtain ⟨a, b, d, e, h1, h2, rfl, rfl⟩ := (appendVariableMeters_iff _ _ _ _).mp he
        exact .visAmount (.meterRange h1 h2)
  | visMissing => cases ha
  | @visAmount as k v x hA =>
    cases k with
    | whole =>
      unfold VisibilityGroup.append at ha
      simp only at ha
      obtain ⟨f, hf, he⟩ := firstOf_of (by simp) ha
      simp only [List.mem_cons, List.not_mem_nil, or_false] at hf
      cases hA with
      | whole hw =>
        rcases hf with rfl | rfl | rfl
        · obtain ⟨a, b, q, m', q', hq, hn, hw', rfl, rfl⟩ := (appendVariable_second _ _ hw rfl _ _ _).mp he
          by_cases hb : '/' ∈ b
          · rw [if_pos hb]
            exact .visAmount (.range (.mixed hw hq hn) ⟨hw', hb⟩)
          · rw [if_neg hb]
            exact .visAmount (.rangeWhole (.mixed hw hq hn) ⟨hw', hb⟩)
        · obtain ⟨q, hq, hn, rfl⟩ := (appendFraction_second _ _ hw rfl _ _).mp he
          exact .visAmount (.mixed hw hq hn)
        · obtain ⟨r, hr, rfl⟩ := (appendRunway_iff _ _ _ _).mp he
          exact .visAmountRunway (.whole hw) hr
    | part =>
      obtain ⟨f, hf, he⟩ := firstOf_of (by simp) ha
      obtain rfl := List.mem_singleton.mp hf
      obtain ⟨r, hr, rfl⟩ := (appendRunway_iff _ _ _ _).mp he
      exact .visAmountRunway hA hr
    | meters =>
      obtain ⟨f, hf, he⟩ := firstOf_of (by simp) ha
      obtain rfl := List.mem_singleton.mp hf
      obtain ⟨r, hr, rfl⟩ := (appendRunway_iff _ _ _ _).mp he
      exact .visAmountRunway hA hr
    | range =>
      obtain ⟨f, hf, he⟩ := firstOf_of (by simp) ha
      obtain rfl := List.mem_singleton.mp hf
      obtain ⟨r, hr, rfl⟩ := (appendRunway_iff _ _ _ _).mp he
      exact .visAmountRunway hA hr
    | rangeWhole =>
      obtain ⟨f, hf, he⟩ := firstOf_of (by simp) ha
      simp only [List.mem_cons, List.not_mem_nil, or_false] at hf
      rcases hf with rfl | rfl
      · cases hA with
        | rangeWhole hm hb =>
          obtain ⟨q, hq, rfl⟩ := (appendMax_iff _ _ hb rfl _ _).mp he
          have := VisRemark.visAmount (Amount.rangeMixed hm hb hq)
          simpa [AmountKind.isRange] using this
      · obtain ⟨r, hr, rfl⟩ := (appendRunway_iff _ _ _ _).mp he
        exact .visAmountRunway hA hr
  | visAmountRunway => cases ha
  | @visWhere t0 d f t hw =>
    obtain ⟨f, hf, he⟩ := firstOf_of (by simp) ha
    simp only [List.mem_cons, List.not_mem_nil, or_false] at hf
    rcases hf with rfl | rfl | rfl | rfl
    · obtain ⟨m, q, hq, rfl⟩ := (appendInteger_iff _ _ rfl _ _).mp he
      exact .visWhereAmount hw (.whole hq) (by decide)
    · obtain ⟨a, b, m, q, m', q', hq, hq', rfl, rfl⟩ := (appendVariable_first _ _ rfl _ _ _).mp he
      by_cases hb : '/' ∈ b
      · rw [if_pos hb]
        have := VisRemark.visWhereAmount hw (.range (.plain hq) ⟨hq', hb⟩) (by decide)
        cases d <;> exact this
      · rw [if_neg hb]
        have := VisRemark.visWhereAmount hw (.rangeWhole (.plain hq) ⟨hq', hb⟩) (by decide)
        cases d <;> exact this
    · obtain ⟨m, q, hq, rfl⟩ := (appendFraction_first _ _ rfl _ _).mp he
      exact .visWhereAmount hw (.part hq) (by decide)
    · obtain ⟨a, b, d1, e, h1, h2, rfl, rfl⟩ := (appendVariableMeters_iff _ _ _ _).mp he
      have := VisRemark.visWhereAmount hw (.meterRange h1 h2) (by decide)
      cases d <;> exact this
  | @visWhereAmount t0 d f t as k v x hw hA hk =>
    cases k with
    | whole =>
      obtain ⟨f, hf, he⟩ := firstOf_of (by simp) ha
      simp only [List.mem_cons, List.not_mem_nil, or_false] at hf
      cases hA with
      | whole hq =>
        rcases hf with rfl | rfl
        · obtain ⟨q, hf, hn, rfl⟩ := (appendFraction_second _ _ hq rfl _ _).mp he
          exact .visWhereAmount hw (.mixed hq hf hn) (by decide)
        · obtain ⟨a, b, q, m', q', hp, hn, hq', rfl, rfl⟩ := (appendVariable_second _ _ hq rfl _ _ _).mp he
          by_cases hb : '/' ∈ b
          · rw [if_pos hb]
            have := VisRemark.visWhereAmount hw (.range (.mixed hq hp hn) ⟨hq', hb⟩) (by decide)
            cases d <;> exact this
          · rw [if_neg hb]
            have := VisRemark.visWhereAmount hw (.rangeWhole (.mixed hq hp hn) ⟨hq', hb⟩) (by decide)
            cases d <;> exact this
    | part => cases ha
    | meters => exact absurd rfl hk
    | range => cases ha
    | rangeWhole =>
      obtain ⟨f, hf, he⟩ := firstOf_of (by simp) ha
      obtain rfl := List.mem_singleton.mp hf
      cases hA with
      | rangeWhole hm hb =>
        obtain ⟨q, hq, rfl⟩ := (appendMax_iff _ _ hb rfl _ _).mp he
        have := VisRemark.visWhereAmount hw (Amount.rangeMixed hm hb hq) (by decide)
        simpa [AmountKind.isRange] using this
  | observer hw =>
    unfold VisibilityGroup.append at ha
    simp only at ha
    ite_cases ha
    · rename_i e; subst e
      cases ha; exact .observerVis hw
    · cases ha
  | observerVis hw =>
    obtain ⟨f, hf, he⟩ := firstOf_of (by simp) ha
    simp only [List.mem_cons, List.not_mem_nil, or_false] at hf
    rcases hf with rfl | rfl | rfl
    · obtain ⟨m, q, hq, rfl⟩ := (appendInteger_iff _ _ rfl _ _).mp he
      exact .observerAmount hw (.whole hq) rfl
    · obtain ⟨m, q, hq, rfl⟩ := (appendFraction_first _ _ rfl _ _).mp he
      exact .observerAmount hw (.part hq) rfl
    · obtain ⟨d, hq, rfl⟩ := (appendMeters_iff _ _ _ _).mp he
      exact .observerAmount hw (.meters hq) rfl
  | @observerAmount w t as k v x hw hA hk =>
    cases k with
    | whole =>
      unfold VisibilityGroup.append at ha
      simp only [if_true] at ha
      cases hA with
      | whole hq =>
        split at ha
        · rename_i g1 he
          cases ha
          obtain ⟨q, hf, hn, rfl⟩ := (appendFraction_second _ _ hq rfl _ _).mp he
          exact .observerAmount hw (.mixed hq hf hn) rfl
        · split at ha <;> cases ha
    | part => cases ha
    | meters => cases ha
    | range => cases hk
    | rangeWhole => cases hk
  | rvrno => cases ha
  | rvr =>
    unfold VisibilityGroup.append at ha
    simp only at ha
    ite_cases ha
    · rename_i e; subst e
      cases ha; exact .rvrMissing
    · cases ha
  | rvrMissing => cases ha
  | visno =>
    obtain ⟨f, hf, he⟩ := firstOf_of (by simp) ha
    simp only [List.mem_cons, List.not_mem_nil, or_false] at hf
    rcases hf with rfl | rfl
    · obtain ⟨r, hr, rfl⟩ := (appendRunway_iff _ _ _ _).mp he
      exact .visnoRunway hr
    · obtain ⟨d, f, t, hw, rfl⟩ := (appendDirection_iff _ _ rfl rfl rfl _ _).mp he
      exact .visnoWhere hw
  | visnoRunway => cases ha
  | visnoWhere => cases ha

/-! ### From the specification to the code -/

/-- Finds a reader for the kind of text. -/
macro "reader_mem" : tactic =>
  `(tactic| repeat first | exact List.mem_cons_self | apply List.mem_cons_of_mem)

/-- The groups so far. -/
abbrev visTaken (ws : List Str) : Option VisibilityGroup :=
  taken (VisibilityGroup.parse · .RMK) VisibilityGroup.append ws

theorem more {ws : List Str} {g g' : VisibilityGroup} {s : Str} (h : visTaken ws = some g)
    (ha : VisibilityGroup.append g s = (g', .APPENDED)) : visTaken (ws ++ [s]) = some g' :=
  (taken_snoc (by rintro rfl; cases h) s g').mpr ⟨g, h, ha⟩

theorem not_misg {s : Str} (h : 'I' ∉ s) : s ≠ c!"MISG" := by
  rintro rfl; simp at h

theorem mileWord_noI {s : Str} {m : Modifier} {q : Rat} (h : MileWord s m q) : 'I' ∉ s := by
  intro hc
  rcases mileWord_chars h _ hc with h | h | h | h <;> revert h <;> decide

theorem meterWord_noI {s : Str} {d : Distance} (h : MeterWord s d) : 'I' ∉ s := by
  obtain ⟨n, -, rfl⟩ := meterWord_digits h
  intro h
  have := decimal_digits _ _ _ h
  revert this; decide

/-- After VIS. -/
theorem after_vis {s : Str} {f : VisibilityGroup → Option VisibilityGroup} {g' : VisibilityGroup}
    (hm : s ≠ c!"MISG") (hf : (f, wordKind s) ∈ [
      ((appendDirection · s .VIS_DIR), 0), ((appendInteger · s .VIS_INTEGER), 6),
      ((appendFraction · s .VIS_FRACTION_OR_METERS), 4),
      ((appendVariable · s .VIS_VAR_MAX_INT .VIS_VAR), 3),
      ((appendMeters · s .VIS_FRACTION_OR_METERS), 5), ((appendVariableMeters · s .VIS_VAR), 2)])
    (he : f { visType := .PREVAILING, incompleteText := .VIS } = some g') :
    VisibilityGroup.append { visType := .PREVAILING, incompleteText := .VIS } s = (g', .APPENDED) := by
  have := firstOf_take (o := ({ visType := .PREVAILING, incompleteText := .VIS }, .GROUP_INVALIDATED))
    (n := wordKind s) _ (by simp) ?_ hf he
  · unfold VisibilityGroup.append
    simp only [if_neg hm]
    exact this
  · intro x hx g' he
    simp only [List.mem_cons, List.not_mem_nil, or_false] at hx
    rcases hx with rfl | rfl | rfl | rfl | rfl | rfl <;> dsimp only at he
    · obtain ⟨d, f, t, hw, -⟩ := (appendDirection_iff _ _ rfl rfl rfl _ _).mp he
      exact kind_where hw
    · obtain ⟨m, q, hw, -⟩ := (appendInteger_iff _ _ rfl _ _).mp he
      exact kind_whole hw
    · obtain ⟨m, q, hw, -⟩ := (appendFraction_first _ _ rfl _ _).mp he
      exact kind_part hw
    · obtain ⟨a, b, m, q, m', q', hw, hw', rfl, -⟩ := (appendVariable_first _ _ rfl _ _ _).mp he
      exact kind_range hw hw'
    · obtain ⟨d, hw, -⟩ := (appendMeters_iff _ _ _ _).mp he
      exact kind_meters hw
    · obtain ⟨a, b, d, e, h1, h2, rfl, -⟩ := (appendVariableMeters_iff _ _ _ _).mp he
      exact kind_meterRange h1 h2

/-- After VIS and whole miles. -/
theorem after_whole {w s : Str} {m : Modifier} {p : Rat} (hw : WholeWord w m p)
    {f : VisibilityGroup → Option VisibilityGroup} {g' : VisibilityGroup}
    (hf : (f, wordKind s) ∈ [
      ((appendVariable · s .VIS_VAR_MAX_INT .VIS_VAR), 3),
      ((appendFraction · s .VIS_FRACTION_OR_METERS), 4), ((appendRunway · s), 1)])
    (he : f { visType := .PREVAILING, vis := mileDistance m p, incompleteText := .VIS_INTEGER } = some g') :
    VisibilityGroup.append
      { visType := .PREVAILING, vis := mileDistance m p, incompleteText := .VIS_INTEGER } s =
      (g', .APPENDED) := by
  refine firstOf_take (n := wordKind s) _ (by simp) ?_ hf he
  intro x hx g' he
  simp only [List.mem_cons, List.not_mem_nil, or_false] at hx
  rcases hx with rfl | rfl | rfl <;> dsimp only at he
  · obtain ⟨a, b, q, m', q', hq, hn, hw', rfl, -⟩ := (appendVariable_second _ _ hw rfl _ _ _).mp he
    exact kind_range hq.1 hw'
  · obtain ⟨q, hq, hn, -⟩ := (appendFraction_second _ _ hw rfl _ _).mp he
    exact kind_part hq
  · obtain ⟨r, hr, -⟩ := (appendRunway_iff _ _ _ _).mp he
    exact kind_runway hr

/-- After VIS and a range with a maximum of whole miles. -/
theorem after_range {w s : Str} {m : Modifier} {p : Rat} {v : Distance} (hw : WholeWord w m p)
    {f : VisibilityGroup → Option VisibilityGroup} {g' : VisibilityGroup}
    (hf : (f, wordKind s) ∈ [((appendVariableMaxFraction · s .VIS_VAR), 4), ((appendRunway · s), 1)])
    (he : f { visType := .VARIABLE_PREVAILING, vis := v, visMax := mileDistance m p,
              incompleteText := .VIS_VAR_MAX_INT } = some g') :
    VisibilityGroup.append
      { visType := .VARIABLE_PREVAILING, vis := v, visMax := mileDistance m p,
        incompleteText := .VIS_VAR_MAX_INT } s = (g', .APPENDED) := by
  refine firstOf_take (n := wordKind s) _ (by simp) ?_ hf he
  intro x hx g' he
  simp only [List.mem_cons, List.not_mem_nil, or_false] at hx
  rcases hx with rfl | rfl <;> dsimp only at he
  · obtain ⟨q, hq, -⟩ := (appendMax_iff _ _ hw rfl _ _).mp he
    exact kind_fraction hq
  · obtain ⟨r, hr, -⟩ := (appendRunway_iff _ _ _ _).mp he
    exact kind_runway hr

/-- The group after VIS and a direction or sector. -/
def placed (d f t : Option Direction) : VisibilityGroup :=
  { visType := if d.isSome then .DIRECTIONAL else .SECTOR, dir := d, dirSecFrom := f, dirSecTo := t
    incompleteText := .VIS_DIR }

theorem after_where {s : Str} {d f t : Option Direction}
    {r : VisibilityGroup → Option VisibilityGroup} {g' : VisibilityGroup}
    (hf : (r, wordKind s) ∈ [
      ((appendInteger · s .VIS_DIR_INTEGER), 6), ((appendVariable · s .VIS_DIR_VAR_MAX_INT), 3),
      ((appendFraction · s), 4), ((appendVariableMeters · s), 2)])
    (he : r (placed d f t) = some g') : VisibilityGroup.append (placed d f t) s = (g', .APPENDED) := by
  refine firstOf_take (n := wordKind s) _ (by simp) ?_ hf he
  intro x hx g' he
  simp only [List.mem_cons, List.not_mem_nil, or_false] at hx
  rcases hx with rfl | rfl | rfl | rfl <;> dsimp only at he
  · obtain ⟨m, q, hw, -⟩ := (appendInteger_iff _ _ rfl _ _).mp he
    exact kind_whole hw
  · obtain ⟨a, b, m, q, m', q', hw, hw', rfl, -⟩ := (appendVariable_first _ _ rfl _ _ _).mp he
    exact kind_range hw hw'
  · obtain ⟨m, q, hw, -⟩ := (appendFraction_first _ _ rfl _ _).mp he
    exact kind_part hw
  · obtain ⟨a, b, d, e, h1, h2, rfl, -⟩ := (appendVariableMeters_iff _ _ _ _).mp he
    exact kind_meterRange h1 h2

theorem after_whereWhole {w s : Str} {m : Modifier} {p : Rat} {d f t : Option Direction}
    (hw : WholeWord w m p) {r : VisibilityGroup → Option VisibilityGroup} {g' : VisibilityGroup}
    (hf : (r, wordKind s) ∈ [
      ((appendFraction · s), 4), ((appendVariable · s .VIS_DIR_VAR_MAX_INT), 3)])
    (he : r { placed d f t with vis := mileDistance m p, incompleteText := .VIS_DIR_INTEGER } = some g') :
    VisibilityGroup.append
      { placed d f t with vis := mileDistance m p, incompleteText := .VIS_DIR_INTEGER } s =
      (g', .APPENDED) := by
  refine firstOf_take (n := wordKind s) _ (by simp) ?_ hf he
  intro x hx g' he
  simp only [List.mem_cons, List.not_mem_nil, or_false] at hx
  rcases hx with rfl | rfl <;> dsimp only at he
  · obtain ⟨q, hq, hn, -⟩ := (appendFraction_second _ _ hw rfl _ _).mp he
    exact kind_part hq
  · obtain ⟨a, b, q, m', q', hq, hn, hw', rfl, -⟩ := (appendVariable_second _ _ hw rfl _ _ _).mp he
    exact kind_range hq.1 hw'

theorem after_observer {s : Str} {y : VisibilityType}
    {r : VisibilityGroup → Option VisibilityGroup} {g' : VisibilityGroup}
    (hf : (r, wordKind s) ∈ [
      ((appendInteger · s .SFC_OR_TWR_VIS_INTEGER), 6), ((appendFraction · s), 4),
      ((appendMeters · s), 5)])
    (he : r { visType := y, incompleteText := .SFC_OR_TWR_VIS } = some g') :
    VisibilityGroup.append { visType := y, incompleteText := .SFC_OR_TWR_VIS } s = (g', .APPENDED) := by
  refine firstOf_take (n := wordKind s) _ (by simp) ?_ hf he
  intro x hx g' he
  simp only [List.mem_cons, List.not_mem_nil, or_false] at hx
  rcases hx with rfl | rfl | rfl <;> dsimp only at he
  · obtain ⟨m, q, hw, -⟩ := (appendInteger_iff _ _ rfl _ _).mp he
    exact kind_whole hw
  · obtain ⟨m, q, hw, -⟩ := (appendFraction_first _ _ rfl _ _).mp he
    exact kind_part hw
  · obtain ⟨d, hw, -⟩ := (appendMeters_iff _ _ _ _).mp he
    exact kind_meters hw

theorem after_visno {s : Str}
    {r : VisibilityGroup → Option VisibilityGroup} {g' : VisibilityGroup}
    (hf : (r, wordKind s) ∈ [((appendRunway · s), 1), ((appendDirection · s), 0)])
    (he : r { visType := .VISNO, incompleteText := .VISNO } = some g') :
    VisibilityGroup.append { visType := .VISNO, incompleteText := .VISNO } s = (g', .APPENDED) := by
  refine firstOf_take (n := wordKind s) _ (by simp) ?_ hf he
  intro x hx g' he
  simp only [List.mem_cons, List.not_mem_nil, or_false] at hx
  rcases hx with rfl | rfl <;> dsimp only at he
  · obtain ⟨r, hr, -⟩ := (appendRunway_iff _ _ _ _).mp he
    exact kind_runway hr
  · obtain ⟨d, f, t, hw, -⟩ := (appendDirection_iff _ _ rfl rfl rfl _ _).mp he
    exact kind_where hw

theorem taken_vis : visTaken [c!"VIS"] = some { visType := .PREVAILING, incompleteText := .VIS } := rfl

theorem taken_whole {w : Str} {m : Modifier} {q : Rat} (h : WholeWord w m q) :
    visTaken [c!"VIS", w] =
      some { visType := .PREVAILING, vis := mileDistance m q, incompleteText := .VIS_INTEGER } :=
  more taken_vis (after_vis (not_misg (mileWord_noI h.1)) (by rw [kind_whole h]; reader_mem)
    ((appendInteger_iff _ _ rfl _ _).mpr ⟨m, q, h, rfl⟩))

theorem noI_range {a b : Str} (ha : 'I' ∉ a) (hb : 'I' ∉ b) : 'I' ∉ a ++ 'V' :: b := by
  simp [ha, hb]

theorem taken_range {ws : List Str} {a b : Str} {v : Distance} {m : Modifier} {q : Rat}
    (hm : Minimum ws a v) (hb : MileWord b m q) :
    visTaken (c!"VIS" :: (ws ++ [a ++ 'V' :: b])) =
      some { visType := .VARIABLE_PREVAILING, vis := v, visMax := mileDistance m q,
             incompleteText := if '/' ∈ b then .VIS_VAR else .VIS_VAR_MAX_INT } := by
  cases hm with
  | plain ha =>
    exact more taken_vis (after_vis (not_misg (noI_range (mileWord_noI ha) (mileWord_noI hb)))
      (by rw [kind_range ha hb]; reader_mem)
      ((appendVariable_first _ _ rfl _ _ _).mpr ⟨_, _, _, _, _, _, ha, hb, rfl, rfl⟩))
  | mixed hw ha hn =>
    exact more (taken_whole hw) (after_whole hw (by rw [kind_range ha.1 hb]; reader_mem)
      ((appendVariable_second _ _ hw rfl _ _ _).mpr ⟨_, _, _, _, _, ha, hn, hb, rfl, rfl⟩))

theorem taken_amount {as : List Str} {k : AmountKind} {v x : Distance} (h : Amount as k v x) :
    visTaken (c!"VIS" :: as) = some
        { visType := if k.isRange then .VARIABLE_PREVAILING else .PREVAILING, vis := v, visMax := x
          incompleteText := match k with
            | .whole => .VIS_INTEGER
            | .part | .meters => .VIS_FRACTION_OR_METERS
            | .rangeWhole => .VIS_VAR_MAX_INT
            | .range => .VIS_VAR } := by
  cases h with
  | whole h => exact taken_whole h
  | part h =>
    exact more taken_vis (after_vis (not_misg (mileWord_noI h.1)) (by rw [kind_part h]; reader_mem)
      ((appendFraction_first _ _ rfl _ _).mpr ⟨_, _, h, rfl⟩))
  | mixed hw hf hn =>
    exact more (taken_whole hw) (after_whole hw (by rw [kind_part hf]; reader_mem)
      ((appendFraction_second _ _ hw rfl _ _).mpr ⟨_, hf, hn, rfl⟩))
  | meters h =>
    exact more taken_vis (after_vis (not_misg (meterWord_noI h)) (by rw [kind_meters h]; reader_mem)
      ((appendMeters_iff _ _ _ _).mpr ⟨_, h, rfl⟩))
  | rangeWhole hm hb =>
    have := taken_range hm hb.1
    rw [if_neg hb.2] at this
    exact this
  | range hm hb =>
    have := taken_range hm hb.1
    rw [if_pos hb.2] at this
    exact this
  | rangeMixed hm hb hf =>
    have h1 := taken_range hm hb.1
    rw [if_neg hb.2] at h1
    have := more h1 (after_range hb (by rw [kind_fraction hf]; reader_mem)
      ((appendMax_iff _ _ hb rfl _ _).mpr ⟨_, hf, rfl⟩))
    simpa [AmountKind.isRange] using this
  | meterRange ha hb =>
    exact more taken_vis (after_vis (not_misg (noI_range (meterWord_noI ha) (meterWord_noI hb)))
      (by rw [kind_meterRange ha hb]; reader_mem)
      ((appendVariableMeters_iff _ _ _ _).mpr ⟨_, _, _, _, ha, hb, rfl, rfl⟩))

theorem where_noI {s : Str} {d f t : Option Direction} (h : WhereWord s d f t) : s ≠ c!"MISG" := by
  rintro rfl
  have := kind_where h
  revert this
  decide

theorem taken_where {s : Str} {d f t : Option Direction} (h : WhereWord s d f t) :
    visTaken [c!"VIS", s] = some (placed d f t) :=
  more taken_vis (after_vis (where_noI h) (by rw [kind_where h]; reader_mem)
    ((appendDirection_iff _ _ rfl rfl rfl _ _).mpr ⟨_, _, _, h, rfl⟩))

theorem taken_whereWhole {s w : Str} {d f t : Option Direction} {m : Modifier} {q : Rat}
    (h : WhereWord s d f t) (hw : WholeWord w m q) : visTaken [c!"VIS", s, w] =
      some { placed d f t with vis := mileDistance m q, incompleteText := .VIS_DIR_INTEGER } :=
  more (taken_where h) (after_where (by rw [kind_whole hw]; reader_mem)
    ((appendInteger_iff _ _ rfl _ _).mpr ⟨_, _, hw, rfl⟩))

theorem taken_whereRange {s : Str} {d f t : Option Direction} {ws : List Str} {a b : Str} {v : Distance}
    {m : Modifier} {q : Rat} (h : WhereWord s d f t) (hm : Minimum ws a v) (hb : MileWord b m q) :
    visTaken (c!"VIS" :: s :: (ws ++ [a ++ 'V' :: b])) =
      some { placed d f t with
              visType := if d.isSome then .VARIABLE_DIRECTIONAL else .VARIABLE_SECTOR
              vis := v, visMax := mileDistance m q
              incompleteText := if '/' ∈ b then .NONE else .VIS_DIR_VAR_MAX_INT } := by
  cases hm with
  | plain ha =>
    have := more (taken_where h) (after_where (by rw [kind_range ha hb]; reader_mem)
      ((appendVariable_first _ _ rfl _ _ _).mpr ⟨_, _, _, _, _, _, ha, hb, rfl, rfl⟩))
    cases d <;> exact this
  | mixed hw ha hn =>
    have := more (taken_whereWhole h hw) (after_whereWhole hw (by rw [kind_range ha.1 hb]; reader_mem)
      ((appendVariable_second _ _ hw rfl _ _ _).mpr ⟨_, _, _, _, _, ha, hn, hb, rfl, rfl⟩))
    cases d <;> exact this

theorem taken_whereAmount {s : Str} {d f t : Option Direction} {as : List Str} {k : AmountKind}
    {v x : Distance} (h : WhereWord s d f t) (hA : Amount as k v x) (hk : k ≠ .meters) :
    visTaken (c!"VIS" :: s :: as) = some
        { visType := if k.isRange then (if d.isSome then .VARIABLE_DIRECTIONAL else .VARIABLE_SECTOR)
            else (if d.isSome then .DIRECTIONAL else .SECTOR)
          vis := v, visMax := x, dir := d, dirSecFrom := f, dirSecTo := t
          incompleteText := match k with
            | .whole => .VIS_DIR_INTEGER
            | .rangeWhole => .VIS_DIR_VAR_MAX_INT
            | _ => .NONE } := by
  cases hA with
  | whole hw => exact taken_whereWhole h hw
  | part hw =>
    exact more (taken_where h) (after_where (by rw [kind_part hw]; reader_mem)
      ((appendFraction_first _ _ rfl _ _).mpr ⟨_, _, hw, rfl⟩))
  | mixed hw hf hn =>
    exact more (taken_whereWhole h hw) (after_whereWhole hw (by rw [kind_part hf]; reader_mem)
      ((appendFraction_second _ _ hw rfl _ _).mpr ⟨_, hf, hn, rfl⟩))
  | meters h => exact absurd rfl hk
  | rangeWhole hm hb =>
    have := taken_whereRange h hm hb.1
    rw [if_neg hb.2] at this
    exact this
  | range hm hb =>
    have := taken_whereRange h hm hb.1
    rw [if_pos hb.2] at this
    exact this
  | rangeMixed hm hb hf =>
    have h1 := taken_whereRange h hm hb.1
    rw [if_neg hb.2] at h1
    have := more h1 (s := _) (g' := _) (firstOf_take (n := 4) [((appendVariableMaxFraction · _), 4)] (by simp)
      (by simp) (List.mem_singleton.mpr rfl) ((appendMax_iff _ _ hb rfl _ _).mpr ⟨_, hf, rfl⟩))
    simpa [AmountKind.isRange, placed] using this
  | meterRange ha hb =>
    have := more (taken_where h) (after_where (by rw [kind_meterRange ha hb]; reader_mem)
      ((appendVariableMeters_iff _ _ _ _).mpr ⟨_, _, _, _, ha, hb, rfl, rfl⟩))
    cases d <;> exact this

theorem taken_observer {w : Str} {y : VisibilityType}
    (h : (w, y) ∈ [(c!"SFC", VisibilityType.SURFACE), (c!"TWR", .TOWER)]) :
    visTaken [w] = some { visType := y, incompleteText := .SFC_OR_TWR } ∧
    visTaken [w, c!"VIS"] = some { visType := y, incompleteText := .SFC_OR_TWR_VIS } := by
  simp only [List.mem_cons, Prod.mk.injEq, List.not_mem_nil, or_false] at h
  rcases h with ⟨rfl, rfl⟩ | ⟨rfl, rfl⟩ <;> exact ⟨rfl, rfl⟩

theorem taken_observerAmount {w : Str} {y : VisibilityType} {as : List Str} {k : AmountKind}
    {v x : Distance} (h : (w, y) ∈ [(c!"SFC", VisibilityType.SURFACE), (c!"TWR", .TOWER)])
    (hA : Amount as k v x) (hk : k.isRange = false) :
    visTaken (w :: c!"VIS" :: as) = some
        { visType := y, vis := v
          incompleteText := if k = .whole then .SFC_OR_TWR_VIS_INTEGER else .NONE } := by
  have h0 := (taken_observer h).2
  have whole : ∀ {u m q}, WholeWord u m q → visTaken [w, c!"VIS", u] = some
      { visType := y, vis := mileDistance m q, incompleteText := .SFC_OR_TWR_VIS_INTEGER } := by
    intro u m q hu
    exact more h0 (after_observer (by rw [kind_whole hu]; reader_mem)
      ((appendInteger_iff _ _ rfl _ _).mpr ⟨_, _, hu, rfl⟩))
  cases hA with
  | whole hw => exact whole hw
  | part hw =>
    exact more h0 (after_observer (by rw [kind_part hw]; reader_mem)
      ((appendFraction_first _ _ rfl _ _).mpr ⟨_, _, hw, rfl⟩))
  | mixed hw hf hn =>
    refine more (whole hw) ?_
    unfold VisibilityGroup.append
    simp only
    rw [(appendFraction_second _ _ hw rfl _ _).mpr ⟨_, hf, hn, rfl⟩]
    rfl
  | meters hw =>
    exact more h0 (after_observer (by rw [kind_meters hw]; reader_mem)
      ((appendMeters_iff _ _ _ _).mpr ⟨_, hw, rfl⟩))
  | rangeWhole => cases hk
  | range => cases hk
  | rangeMixed => cases hk
  | meterRange => cases hk

theorem taken_amountRunway {as : List Str} {k : AmountKind} {v x : Distance} {s : Str} {r : Runway}
    (h : Amount as k v x) (hr : RunwayWord s r) :
    visTaken (c!"VIS" :: (as ++ [s])) = some
        { visType := if k.isRange then .VARIABLE_RUNWAY else .RUNWAY, vis := v, visMax := x
          rw := some r } := by
  have h0 := taken_amount h
  have one : ∀ g : VisibilityGroup, firstOf g (g, .GROUP_INVALIDATED) [(appendRunway · s)] =
      ({ g with rw := some r, incompleteText := .NONE
                visType := if g.visType = .PREVAILING then .RUNWAY
                    else if g.visType = .VARIABLE_PREVAILING then .VARIABLE_RUNWAY
                    else g.visType }, .APPENDED) ∧
      firstOf g ({ g with incompleteText := .NONE }, .NOT_APPENDED) [(appendRunway · s)] =
      ({ g with rw := some r, incompleteText := .NONE
                visType := if g.visType = .PREVAILING then .RUNWAY
                    else if g.visType = .VARIABLE_PREVAILING then .VARIABLE_RUNWAY
                    else g.visType }, .APPENDED) := by
    intro g
    have := (appendRunway_iff g _ s .NONE).mpr ⟨r, hr, rfl⟩
    simp only [firstOf, this, and_self]
  cases k with
  | whole =>
    cases h with
    | whole hw =>
      exact more h0 (after_whole hw (by rw [kind_runway hr]; reader_mem)
        ((appendRunway_iff _ _ _ _).mpr ⟨r, hr, rfl⟩))
  | part => exact more h0 (one _).1
  | meters => exact more h0 (one _).1
  | range => exact more h0 (one _).2
  | rangeWhole =>
    cases h with
    | rangeWhole hm hb =>
      exact more h0 (after_range hb (by rw [kind_runway hr]; reader_mem)
        ((appendRunway_iff _ _ _ _).mpr ⟨r, hr, rfl⟩))

/-! ### Results -/

/-- C64. In remarks, exactly the sequences of texts above are taken as one visibility group, and it
holds exactly what they say: a missing visibility, the prevailing visibility or its range (in metres,
or in miles with whole number and fraction as separate texts), the same for a runway, in a direction
or a sector, at the surface or from the tower, missing runway visual range, and missing visibility on
a runway or in a direction. -/
theorem C64_history (ws : List Str) (g : VisibilityGroup) :
    taken (VisibilityGroup.parse · .RMK) VisibilityGroup.append ws = some g ↔ VisRemark ws g := by
  constructor
  · induction ws using List.reverseRecOn generalizing g with
    | nil => intro h; cases h
    | append_singleton ws s ih =>
      intro h
      by_cases hne : ws = []
      · subst hne
        rw [List.nil_append, taken_one, C47_remark] at h
        simp only [List.mem_cons, Prod.mk.injEq, List.not_mem_nil, or_false] at h
        rcases h with ⟨rfl, rfl⟩ | ⟨rfl, rfl⟩ | ⟨rfl, rfl⟩ | ⟨rfl, rfl⟩ | ⟨rfl, rfl⟩ | ⟨rfl, rfl⟩
        · exact .vis
        · exact .observer (by simp)
        · exact .observer (by simp)
        · exact .rvrno
        · exact .visno
        · exact .rvr
      · obtain ⟨g0, h0, ha⟩ := (taken_snoc hne s g).mp h
        exact history_step (ih g0 h0) ha
  · intro h
    cases h with
    | vis => rfl
    | visMissing => rfl
    | @visAmount as k v x hA =>
      have := taken_amount hA
      cases k <;> exact this
    | visAmountRunway hA hr => exact taken_amountRunway hA hr
    | visWhere hw => exact taken_where hw
    | @visWhereAmount s d f t as k v x hw hA hk =>
      have := taken_whereAmount hw hA hk
      cases k <;> exact this
    | observer hw => exact (taken_observer hw).1
    | observerVis hw => exact (taken_observer hw).2
    | observerAmount hw hA hk => exact taken_observerAmount hw hA hk
    | rvrno => rfl
    | rvr => rfl
    | rvrMissing => rfl
    | visno => rfl
    | visnoRunway hr =>
      exact more (ws := [c!"VISNO"]) rfl (after_visno (by rw [kind_runway hr]; reader_mem)
        ((appendRunway_iff _ _ _ _).mpr ⟨_, hr, rfl⟩))
    | visnoWhere hw =>
      exact more (ws := [c!"VISNO"]) rfl (after_visno (by rw [kind_where hw]; reader_mem)
        ((appendDirection_iff _ _ rfl rfl rfl _ _).mpr ⟨_, _, _, hw, rfl⟩))

/-- The sequences which are of no use without a continuation. -/
inductive NeedsMore : List Str → Prop
  | vis : NeedsMore [c!"VIS"]
  | amount {as k v x} : Amount as k v x → k.isRange = false → NeedsMore (c!"VIS" :: as)
  | place {s d f t} : WhereWord s d f t → NeedsMore [c!"VIS", s]
  | observer {w} : w ∈ [c!"SFC", c!"TWR"] → NeedsMore [w]
  | observerVis {w} : w ∈ [c!"SFC", c!"TWR"] → NeedsMore [w, c!"VIS"]
  | rvr : NeedsMore [c!"RVR"]

/-- A range which begins with the fraction of a mixed number is not expected for the surface or tower
visibility. -/
def RangeForObserver (ws : List Str) (s : Str) : Prop :=
  ∃ w u m p a b q m' q', w ∈ [c!"SFC", c!"TWR"] ∧ WholeWord u m p ∧ ws = [w, c!"VIS", u] ∧
    PartWord a .NONE q ∧ ¬ IsWhole q ∧ MileWord b m' q' ∧ s = a ++ 'V' :: b

/-- What the code keeps for the sequences above. -/
def needing : List VisIncomplete :=
  [.VIS, .VIS_INTEGER, .VIS_FRACTION_OR_METERS, .VIS_DIR, .SFC_OR_TWR, .SFC_OR_TWR_VIS, .RVR]

theorem needsMore_state {ws : List Str} {g : VisibilityGroup} (h : VisRemark ws g) :
    NeedsMore ws ↔ g.incompleteText ∈ needing := by
  constructor
  · intro hn
    have key : ∃ g1, VisRemark ws g1 ∧ g1.incompleteText ∈ needing := by
      cases hn with
      | vis => exact ⟨_, .vis, by decide⟩
      | @amount as k v x hA hk =>
        exact ⟨_, .visAmount hA, by cases k <;> first | cases hk; done | simp [needing]⟩
      | place hw => exact ⟨_, .visWhere hw, by simp [needing]⟩
      | observer hw =>
        simp only [List.mem_cons, List.not_mem_nil, or_false] at hw
        rcases hw with rfl | rfl
        · exact ⟨_, .observer (t := .SURFACE) (by simp), by decide⟩
        · exact ⟨_, .observer (t := .TOWER) (by simp), by decide⟩
      | observerVis hw =>
        simp only [List.mem_cons, List.not_mem_nil, or_false] at hw
        rcases hw with rfl | rfl
        · exact ⟨_, .observerVis (t := .SURFACE) (by simp), by decide⟩
        · exact ⟨_, .observerVis (t := .TOWER) (by simp), by decide⟩
      | rvr => exact ⟨_, .rvr, by decide⟩
    obtain ⟨g1, h1, hi⟩ := key
    have e := (C64_history ws g1).mpr h1
    rw [(C64_history ws g).mpr h] at e
    rw [Option.some.inj e]
    exact hi
  · intro hi
    have obs : ∀ {w t}, (w, t) ∈ [(c!"SFC", VisibilityType.SURFACE), (c!"TWR", .TOWER)] →
        w ∈ [c!"SFC", c!"TWR"] := by
      intro w t hw
      simp only [List.mem_cons, Prod.mk.injEq, List.not_mem_nil, or_false] at hw ⊢
      rcases hw with ⟨rfl, -⟩ | ⟨rfl, -⟩ <;> simp
    cases h with
    | vis => exact .vis
    | visMissing => exact absurd hi (by decide)
    | @visAmount as k v x hA =>
      refine .amount hA ?_
      cases k <;> first | rfl | (exfalso; revert hi; simp [needing])
    | visAmountRunway => exact absurd hi (by simp [needing])
    | visWhere hw => exact .place hw
    | @visWhereAmount s d f t as k v x hw hA hk =>
      exfalso; revert hi
      cases k <;> simp [needing]
    | observer hw => exact .observer (obs hw)
    | observerVis hw => exact .observerVis (obs hw)
    | @observerAmount w t as k v x hw hA hk =>
      exfalso; revert hi
      cases k <;> simp [needing]
    | rvrno => exact absurd hi (by decide)
    | rvr => exact .rvr
    | rvrMissing => exact absurd hi (by decide)
    | visno => exact absurd hi (by decide)
    | visnoRunway => exact absurd hi (by simp [needing])
    | visnoWhere => exact absurd hi (by simp [needing])

theorem firstOf_else {g : VisibilityGroup} {o : VisibilityGroup × AppendResult}
    {fs : List (VisibilityGroup → Option VisibilityGroup)} (h : (firstOf g o fs).2 ≠ .APPENDED) :
    firstOf g o fs = o := by
  induction fs with
  | nil => rfl
  | cons f fs ih =>
    cases hf : f g with
    | some a => simp [firstOf, hf] at h
    | none =>
      simp only [firstOf, hf] at h ⊢
      exact ih h

/-- C64. A text which does not continue the remark: if the remark is of no use without a continuation
(or the text is a range in a place where a range is not expected), the group is discarded; otherwise
the group is kept as it is, it is complete, and the text begins another group. -/
theorem C64_rejected (ws : List Str) (g : VisibilityGroup) (s : Str)
    (h : taken (VisibilityGroup.parse · .RMK) VisibilityGroup.append ws = some g)
    (hn : ∀ g', ¬ VisRemark (ws ++ [s]) g') :
    ((VisibilityGroup.append g s).2 = .GROUP_INVALIDATED ∧ (NeedsMore ws ∨ RangeForObserver ws s)) ∨
    (VisibilityGroup.append g s = ({ g with incompleteText := .NONE }, .NOT_APPENDED) ∧
      ¬ (NeedsMore ws ∨ RangeForObserver ws s)) := by
  have hv := (C64_history ws g).mp h
  have hx : (VisibilityGroup.append g s).2 ≠ .APPENDED := by
    intro e
    exact hn _ (history_step hv (Prod.ext rfl e))
  by_cases hm : NeedsMore ws
  · left
    refine ⟨?_, Or.inl hm⟩
    have hi := (needsMore_state hv).mp hm
    obtain ⟨vt, v, x, tr, d, r, f, t, inc⟩ := g
    simp only [needing, List.mem_cons, List.not_mem_nil, or_false] at hi
    unfold VisibilityGroup.append at hx ⊢
    rcases hi with rfl | rfl | rfl | rfl | rfl | rfl | rfl <;> simp only at hx ⊢
    · by_cases hs : s = c!"MISG"
      · rw [if_pos hs] at hx; exact absurd rfl hx
      · rw [if_neg hs] at hx ⊢
        rw [firstOf_else hx]
    · rw [firstOf_else hx]
    · rw [firstOf_else hx]
    · rw [firstOf_else hx]
    · by_cases hs : s = c!"VIS"
      · rw [if_pos hs] at hx; exact absurd rfl hx
      · rw [if_neg hs]
    · rw [firstOf_else hx]
    · by_cases hs : s = c!"MISG"
      · rw [if_pos hs] at hx; exact absurd rfl hx
      · rw [if_neg hs]
  · by_cases hr : RangeForObserver ws s
    · left
      refine ⟨?_, Or.inr hr⟩
      obtain ⟨w, u, m, p, a, b, q, m', q', hw, hu, rfl, ha, hnw, hb, rfl⟩ := hr
      have hg : ∃ y, g = { visType := y, vis := mileDistance m p, incompleteText := .SFC_OR_TWR_VIS_INTEGER } := by
        simp only [List.mem_cons, List.not_mem_nil, or_false] at hw
        rcases hw with rfl | rfl
        · have := (C64_history _ _).mpr (VisRemark.observerAmount (t := .SURFACE) (w := c!"SFC") (by simp)
            (Amount.whole hu) rfl)
          rw [h] at this
          exact ⟨_, Option.some.inj this⟩
        · have := (C64_history _ _).mpr (VisRemark.observerAmount (t := .TOWER) (w := c!"TWR") (by simp)
            (Amount.whole hu) rfl)
          rw [h] at this
          exact ⟨_, Option.some.inj this⟩
      obtain ⟨y, rfl⟩ := hg
      unfold VisibilityGroup.append at hx ⊢
      simp only at hx ⊢
      rw [(appendVariable_second _ _ hu rfl _ _ _).mpr ⟨a, b, q, m', q', ha, hnw, hb, rfl, rfl⟩] at hx ⊢
      split
      · rename_i e
        rw [e] at hx
        exact absurd rfl hx
      · rfl
    · right
      refine ⟨?_, by rintro (h | h) <;> contradiction⟩
      have hi : g.incompleteText ∉ needing := fun hi => hm ((needsMore_state hv).mpr hi)
      by_cases ho : g.incompleteText = .SFC_OR_TWR_VIS_INTEGER
      · have key : ∃ w u m p y, w ∈ [c!"SFC", c!"TWR"] ∧ WholeWord u m p ∧ ws = [w, c!"VIS", u] ∧
            g = { visType := y, vis := mileDistance m p, incompleteText := .SFC_OR_TWR_VIS_INTEGER } := by
          cases hv with
          | @observerAmount w t as k v x hw hA hk =>
            cases k with
            | whole =>
              cases hA with
              | whole hu =>
                refine ⟨w, _, _, _, t, ?_, hu, rfl, rfl⟩
                simp only [List.mem_cons, Prod.mk.injEq, List.not_mem_nil, or_false] at hw ⊢
                rcases hw with ⟨rfl, -⟩ | ⟨rfl, -⟩ <;> simp
            | part => cases ho
            | meters => cases ho
            | range => cases hk
            | rangeWhole => cases hk
          | @visAmount as k v x hA => cases k <;> cases ho
          | @visWhereAmount s d f t as k v x hw hA hk => cases k <;> cases ho
          | _ => cases ho
        obtain ⟨w, u, m, p, y, hw, hu, rfl, rfl⟩ := key
        unfold VisibilityGroup.append at hx ⊢
        simp only at hx ⊢
        split
        · rename_i e
          rw [e] at hx
          exact absurd rfl hx
        · split
          · rename_i e
            obtain ⟨a, b, q, m', q', ha, hnw, hb, rfl, -⟩ := (appendVariable_second _ _ hu rfl _ _ _).mp e
            exact absurd ⟨w, u, m, p, a, b, q, m', q', hw, hu, rfl, ha, hnw, hb, rfl⟩ hr
          · rfl
      · have hI : g.incompleteText ≠ .INTEGER := by
          cases hv with
          | @visAmount as k v x hA => cases k <;> simp
          | @visWhereAmount s d f t as k v x hw hA hk => cases k <;> simp
          | @observerAmount w t as k v x hw hA hk => cases k <;> simp
          | _ => simp
        obtain ⟨vt, v, x, tr, d, r, f, t, inc⟩ := g
        simp only [needing, List.mem_cons, List.not_mem_nil, or_false, not_or] at hi ho hI
        unfold VisibilityGroup.append at hx ⊢
        cases inc <;> first
          | (exfalso; simp at hi; done)
          | (exfalso; simp at ho; done)
          | (exfalso; simp at hI; done)
          | rfl
          | exact firstOf_else hx

/-! ### Order of minimum and maximum -/

/-- The values which can be given in miles. -/
def MileValue (q : Rat) : Prop := ∃ i a b : Nat, i ≤ 200 ∧ a < 100 ∧ 0 < b ∧ b < 100 ∧ q = i + a / b

theorem kept_order {q r : Rat} (hq : MileValue q) (hr : MileValue r) :
    ⌊q * 10000⌋₊ ≤ ⌊r * 10000⌋₊ ↔ q ≤ r := by
  constructor
  · intro h
    by_contra hlt
    have hlt := not_le.mp hlt
    obtain ⟨i, a, b, -, -, hb, hb', rfl⟩ := hq
    obtain ⟨j, c, d, -, -, hd, hd', rfl⟩ := hr
    have hbq : (0 : Rat) < b := by exact_mod_cast hb
    have hdq : (0 : Rat) < d := by exact_mod_cast hd
    have e1 : ((i : Rat) + a / b) = ((i * b + a : Nat) : Rat) / b := by
      push_cast; field_simp
    have e2 : ((j : Rat) + c / d) = ((j * d + c : Nat) : Rat) / d := by
      push_cast; field_simp
    have hc : (j * d + c) * b < (i * b + a) * d := by
      rw [e1, e2, div_lt_div_iff₀ hdq hbq] at hlt
      exact_mod_cast hlt
    have hbd : b * d ≤ 99 * 99 := Nat.mul_le_mul (by omega) (by omega)
    have hge : ((j : Rat) + c / d) * 10000 + 1 ≤ ((i : Rat) + a / b) * 10000 := by
      rw [e1, e2, div_mul_eq_mul_div, div_mul_eq_mul_div, div_add_one hdq.ne', div_le_div_iff₀ hdq hbq]
      have : ((j * d + c) * 10000 + d) * b ≤ (i * b + a) * 10000 * d := by
        have h1 : ((j * d + c) * 10000 + d) * b = 10000 * ((j * d + c) * b) + b * d := by ring
        have h2 : (i * b + a) * 10000 * d = 10000 * ((i * b + a) * d) := by ring
        rw [h1, h2]
        omega
      exact_mod_cast this
    have := Nat.floor_mono hge
    rw [Nat.floor_add_one (by positivity)] at this
    omega
  · intro h
    exact Nat.floor_mono (by linarith)

/-- The minimum is not greater than the maximum. -/
def InOrder (v x : Distance) : Prop :=
  (∀ m q m' r, MileValue q → MileValue r → v = mileDistance m q → x = mileDistance m' r → q ≤ r) ∧
  (∀ m a m' b, v = ⟨m, some a, .METERS⟩ → x = ⟨m', some b, .METERS⟩ → a ≤ b)

theorem word_value {s : Str} {m : Modifier} {q : Rat} (h : MileWord s m q) : MileValue q := by
  obtain ⟨i, a, b, hi, ha, hb, hb', rfl⟩ := part_value h
  exact ⟨i, a, b, by omega, ha, hb, hb', rfl⟩

theorem sum_value {w s : Str} {m m' : Modifier} {p q : Rat} (hw : WholeWord w m p) (h : MileWord s m' q) :
    MileValue (p + q) := by
  obtain ⟨n, hn, rfl, -, -⟩ := wholeWord_nat hw
  obtain ⟨i, a, b, hi, ha, hb, hb', rfl⟩ := part_value h
  exact ⟨n + i, a, b, by omega, ha, hb, hb', by push_cast; ring⟩

theorem max_value {w s : Str} {m : Modifier} {p q : Rat} (hw : WholeWord w m p) (h : FractionWord s q) :
    MileValue (p + q) := by
  obtain ⟨n, hn, rfl, -, -⟩ := wholeWord_nat hw
  obtain ⟨i, j, a, b, hi, hj, ha, hb, hb0, -, rfl, -⟩ := h
  exact ⟨n, a, b, by omega, by rcases hi with rfl | rfl <;> omega, by omega,
    by rcases hj with rfl | rfl <;> omega, rfl⟩

theorem minimum_value {ws : List Str} {a : Str} {v : Distance} (h : Minimum ws a v) :
    ∃ m q, MileValue q ∧ v = mileDistance m q := by
  cases h with
  | plain h => exact ⟨_, _, word_value h, rfl⟩
  | mixed hw ha hn => exact ⟨_, _, sum_value hw ha.1, rfl⟩

theorem mileValue_bound {q : Rat} (h : MileValue q) : ⌊q * 10000⌋₊ ≤ 3000000 := by
  obtain ⟨i, a, b, hi, ha, hb, hb', rfl⟩ := h
  rw [floor_mixed]
  have : a * 10000 / b ≤ a * 10000 := Nat.div_le_self _ _
  omega

theorem miles_strict {a b : Nat} (h : a < b) (hb : b ≤ 3000000) :
    f32 (f32 (a : Rat) / 10000) < f32 (f32 (b : Rat) / 10000) := by
  rw [f32_nat (n := a) (by omega), f32_nat (n := b) (by omega)]
  have hb' : (b : Rat) ≤ 3000000 := by exact_mod_cast hb
  have hab : (a : Rat) + 1 ≤ b := by exact_mod_cast h
  have ha0 : (0 : Rat) ≤ a := by positivity
  generalize (a : Rat) = x at *
  generalize (b : Rat) = y at *
  have hx : 0 ≤ x / 10000 := by positivity
  have hy : 0 ≤ y / 10000 := by linarith
  have h1 := f32_rel (x := x / 10000) (by rw [abs_of_nonneg hx]; norm_num at *; linarith)
  have h2 := f32_rel (x := y / 10000) (by rw [abs_of_nonneg hy]; norm_num at *; linarith)
  rw [abs_of_nonneg hx, abs_le] at h1
  rw [abs_of_nonneg hy, abs_le] at h2
  generalize f32 (x / 10000) = z at *
  generalize f32 (y / 10000) = w at *
  norm_num at *
  linarith

theorem meter_bound {s : Str} {d : Distance} (h : MeterWord s d) :
    ∃ m n, n ≤ 10000 ∧ d = ⟨m, some n, .METERS⟩ := by
  rcases h with ⟨-, rfl⟩ | ⟨n, hn, -, rfl⟩
  · exact ⟨_, 10000, le_refl _, rfl⟩
  · exact ⟨_, n, by omega, rfl⟩

/-- What is compared by the code. -/
def ordered (v x : Distance) : Bool :=
  match x.toUnit v.distUnit with
  | some max =>
    match v.toUnit v.distUnit with
    | none => false
    | some min => if min > max then false else true
  | none => true

theorem amount_ordered {as : List Str} {k : AmountKind} {v x : Distance} (h : Amount as k v x) :
    ordered v x = true ↔ InOrder v x := by
  have miles : ∀ {m q m' r}, MileValue q → MileValue r →
      (ordered (mileDistance m q) (mileDistance m' r) = true ↔
        InOrder (mileDistance m q) (mileDistance m' r)) := by
    intro m q m' r hq hr
    have hb := mileValue_bound hq
    have hb' := mileValue_bound hr
    have e : ordered (mileDistance m q) (mileDistance m' r) = true ↔ q ≤ r := by
      have : ordered (mileDistance m q) (mileDistance m' r) =
          if f32 (f32 (⌊q * 10000⌋₊ : Rat) / 10000) > f32 (f32 (⌊r * 10000⌋₊ : Rat) / 10000) then false else true := rfl
      rw [this, ← kept_order hq hr]
      constructor
      · intro h
        by_contra hlt
        rw [if_pos (miles_strict (by omega) hb)] at h
        cases h
      · intro h
        rw [if_neg]
        rw [gt_iff_lt, not_lt]
        rcases Nat.lt_or_ge ⌊q * 10000⌋₊ ⌊r * 10000⌋₊ with hl | hl
        · exact (miles_strict hl hb').le
        · rw [le_antisymm h hl]
    rw [e]
    constructor
    · intro h
      refine ⟨?_, by intro m a m' b h; simp [mileDistance] at h⟩
      intro m1 q1 m2 r1 h1 h2 e1 e2
      simp only [mileDistance, Distance.mk.injEq, Option.some.injEq, and_true] at e1 e2
      rw [← kept_order h1 h2, ← e1.2, ← e2.2, kept_order hq hr]
      exact h
    · rintro ⟨h, -⟩
      exact h _ _ _ _ hq hr rfl rfl
  have none : ∀ v : Distance, ordered v {} = true ↔ InOrder v {} := by
    intro v
    constructor
    · intro _
      exact ⟨by intro m q m' r _ _ _ e; simp [mileDistance] at e, by intro m a m' b _ e; simp at e⟩
    · intro _; rfl
  cases h with
  | whole => exact none _
  | part => exact none _
  | mixed => exact none _
  | meters => exact none _
  | rangeWhole hm hb =>
    obtain ⟨m, q, hq, rfl⟩ := minimum_value hm
    exact miles hq (word_value hb.1)
  | range hm hb =>
    obtain ⟨m, q, hq, rfl⟩ := minimum_value hm
    exact miles hq (word_value hb.1)
  | rangeMixed hm hb hf =>
    obtain ⟨m, q, hq, rfl⟩ := minimum_value hm
    exact miles hq (max_value hb hf)
  | meterRange ha hb =>
    obtain ⟨m, n, hn, rfl⟩ := meter_bound ha
    obtain ⟨m', n', hn', rfl⟩ := meter_bound hb
    have : ordered ⟨m, some n, .METERS⟩ ⟨m', some n', .METERS⟩ =
        if f32 (n : Rat) > f32 (n' : Rat) then false else true := rfl
    rw [this, f32_nat (by omega), f32_nat (by omega)]
    constructor
    · intro h
      refine ⟨by intro m q m' r _ _ e; simp [mileDistance] at e, ?_⟩
      intro m1 a m2 b e1 e2
      simp only [Distance.mk.injEq, Option.some.injEq, and_true] at e1 e2
      obtain ⟨-, rfl⟩ := e1
      obtain ⟨-, rfl⟩ := e2
      by_contra hlt
      rw [if_pos (by exact_mod_cast not_le.mp hlt)] at h
      cases h
    · rintro ⟨-, h⟩
      have := h _ _ _ _ rfl rfl
      rw [if_neg]
      rw [gt_iff_lt, not_lt]
      exact_mod_cast this

/-- C64. A complete remark on visibility is valid exactly if the runway (if any) exists and the minimum
visibility does not exceed the maximum one. -/
theorem C64_valid (ws : List Str) (g : VisibilityGroup) (h : VisRemark ws g) :
    ({ g with incompleteText := .NONE }).isValid = true ↔
      (∀ r, g.rw = some r → r.rNumber ≤ 36 ∨ ((r.rNumber = 88 ∨ r.rNumber = 99) ∧ r.rDesignator = .NONE)) ∧
      InOrder g.vis g.visMax := by
  have hd : g.dir.any (fun d => !d.isValid) = false := by
    have w : ∀ {s d f t}, WhereWord s d f t → Option.any (fun d => !Direction.isValid d) d = false := by
      intro s d f t h
      cases h with
      | octant h =>
        simp only [octantNames, List.mem_cons, Prod.mk.injEq, List.not_mem_nil, or_false] at h
        rcases h with ⟨-, rfl⟩ | ⟨-, rfl⟩ | ⟨-, rfl⟩ | ⟨-, rfl⟩ | ⟨-, rfl⟩ | ⟨-, rfl⟩ | ⟨-, rfl⟩ | ⟨-, rfl⟩ <;>
          decide
      | ndv => decide
      | sector => rfl
    cases h with
    | visWhere hw => exact w hw
    | visWhereAmount hw => exact w hw
    | visnoWhere hw => exact w hw
    | _ => rfl
  have ho : ordered g.vis g.visMax = true ↔ InOrder g.vis g.visMax := by
    have none : ordered ({} : Distance) {} = true ↔ InOrder {} {} := by
      constructor
      · intro _
        exact ⟨by intro m q m' r _ _ _ e; simp [mileDistance] at e, by intro m a m' b _ e; simp at e⟩
      · intro _; rfl
    cases h with
    | visAmount hA => exact amount_ordered hA
    | visAmountRunway hA => exact amount_ordered hA
    | visWhereAmount _ hA => exact amount_ordered hA
    | @observerAmount w t as k v x hw hA hk =>
      cases hA with
      | whole hu => exact amount_ordered (.whole hu)
      | part hu => exact amount_ordered (.part hu)
      | mixed h1 h2 h3 => exact amount_ordered (.mixed h1 h2 h3)
      | meters hu => exact amount_ordered (.meters hu)
      | _ => cases hk
    | _ => exact none
  have hr : g.rw.any (fun r => !r.isValid) = false ↔ ∀ r, g.rw = some r →
      r.rNumber ≤ 36 ∨ ((r.rNumber = 88 ∨ r.rNumber = 99) ∧ r.rDesignator = .NONE) := by
    cases g.rw with
    | none => simp
    | some r =>
      simp only [Option.any_some, Bool.not_eq_false', Option.some.injEq, forall_eq', Runway.isValid,
        Bool.or_eq_true, decide_eq_true_eq, Bool.and_eq_true, beq_iff_eq]
      tauto
  rw [← hr, ← ho]
  obtain ⟨vt, v, x, tr, d, r, f, t, inc⟩ := g
  simp only at hd
  unfold VisibilityGroup.isValid ordered
  simp only [ne_eq, not_true_eq_false, if_false, hd, Bool.false_eq_true]
  cases Distance.toUnit x v.distUnit with
  | none => cases Option.any (fun r => !r.isValid) r <;> simp
  | some b =>
    cases Distance.toUnit v v.distUnit with
    | none => simp
    | some a =>
      by_cases hlt : a > b
      · simp [hlt]
      · simp only [hlt, if_false]
        cases Option.any (fun r => !r.isValid) r <;> simp

end Metaf.Props

namespace Metaf.Props

open Metaf Metaf.Spec

attribute [local instance] exactFloat

/-! ### Cases -/

/-- VIS 1 1/2V3 3/4 RWY06: visibility on a runway between 1 1/2 and 3 3/4 miles. -/
example : taken (VisibilityGroup.parse · .RMK) VisibilityGroup.append
      [c!"VIS", c!"1", c!"1/2V3", c!"3/4", c!"RWY06"] =
    some { visType := .VARIABLE_RUNWAY, vis := ⟨.NONE, some 15000, .STATUTE_MILES⟩
           visMax := ⟨.NONE, some 37500, .STATUTE_MILES⟩, rw := some ⟨6, .NONE⟩ } := by decide +kernel

example : VisRemark [c!"VIS", c!"1", c!"1/2V3", c!"3/4", c!"RWY06"]
    { visType := .VARIABLE_RUNWAY, vis := ⟨.NONE, some 15000, .STATUTE_MILES⟩
      visMax := ⟨.NONE, some 37500, .STATUTE_MILES⟩, rw := some ⟨6, .NONE⟩ } :=
  (C64_history _ _).mp (by decide +kernel)

/-- VIS NE-SE 2 1/2. -/
example : VisRemark [c!"VIS", c!"NE-SE", c!"2", c!"1/2"]
    { visType := .SECTOR, vis := ⟨.NONE, some 25000, .STATUTE_MILES⟩
      dirSecFrom := some ⟨45, .VALUE_CARDINAL⟩, dirSecTo := some ⟨135, .VALUE_CARDINAL⟩ } :=
  (C64_history _ _).mp (by decide +kernel)

/-- TWR VIS M1/4. -/
example : VisRemark [c!"TWR", c!"VIS", c!"M1/4"]
    { visType := .TOWER, vis := ⟨.LESS_THAN, some 2500, .STATUTE_MILES⟩ } :=
  (C64_history _ _).mp (by decide +kernel)

/-- Two metre values do not follow one another. -/
example : ∀ g, ¬ VisRemark [c!"VIS", c!"2000", c!"3000"] g := by
  intro g h
  have := (C64_history _ _).mpr h
  have h0 : taken (VisibilityGroup.parse · .RMK) VisibilityGroup.append
    [c!"VIS", c!"2000", c!"3000"] = none := by decide +kernel
  rw [h0] at this
  cases this

/-- VIS 3V2 is recognised and not valid. -/
example : ∃ g, VisRemark [c!"VIS", c!"3V2"] g ∧ ({ g with incompleteText := .NONE }).isValid = false :=
  ⟨{ visType := .VARIABLE_PREVAILING, vis := ⟨.NONE, some 30000, .STATUTE_MILES⟩
     visMax := ⟨.NONE, some 20000, .STATUTE_MILES⟩, incompleteText := .VIS_VAR_MAX_INT },
   (C64_history _ _).mp (by decide +kernel), by decide +kernel⟩

end Metaf.Props

import Verif.Props.Headings

/-!
Property C60: lightning is that written.
-/

namespace Metaf.Props

set_option linter.unusedSectionVars false

open Metaf Metaf.Spec Metaf.Direction Metaf.LightningGroup

variable [FloatSem]

/-- The words for the frequency of lightning. -/
def frequencyWords : List (List Str × Frequency) :=
  [([], .NONE), ([c!"OCNL"], .OCCASIONAL), ([c!"FRQ"], .FREQUENT), ([c!"CONS"], .CONSTANT)]

/-- A text cut into pieces of two characters; the last piece may be a single character. -/
def inPairs : Str → List Str
  | [] => []
  | [a] => [[a]]
  | a :: b :: rest => [a, b] :: inPairs rest

/-- The distance given by the last of several words. -/
def lastDistance (ws : List Str) : Distance :=
  match ws.getLast? with
  | none => {}
  | some w => if w = c!"DSNT" then { distModifier := .DISTANT } else { distModifier := .VICINITY }

/-- The directions of lightning: none, one, or two with any number of words AND after the first. -/
inductive TwoHeadings : List Str → Option Direction → Option Direction → Option Direction →
    Option Direction → List Cardinal → List Cardinal → Prop
  | none : TwoHeadings [] none none none none [] []
  | one {w ands f t c} : HeadingText w f t c → (∀ x ∈ ands, x = c!"AND") →
      TwoHeadings (w :: ands) f t none none c []
  | two {w ands f t c w' f' t' c'} : HeadingText w f t c → (∀ x ∈ ands, x = c!"AND") →
      HeadingText w' f' t' c' → TwoHeadings (w :: ands ++ [w']) f t f' t' c c'

/-- The codes of the lightning types. -/
def lightningCodes : List Str := [c!"IC", c!"CC", c!"CG", c!"CA"]

/-- Lightning as written: a word for the frequency alone, or frequency, types, distances and
directions. -/
def LightningText (ws : List Str) (g : LightningGroup) (c1 c2 : List Cardinal) : Prop :=
  (∃ w f, ([w], f) ∈ frequencyWords ∧ ws = [w] ∧ g = { freq := f, incomplete := true } ∧
    c1 = [] ∧ c2 = []) ∨
  ∃ fw f ty ds hd f1 t1 f2 t2, (fw, f) ∈ frequencyWords ∧
    (∀ w ∈ ds, w = c!"DSNT" ∨ w = c!"VC") ∧ TwoHeadings hd f1 t1 f2 t2 c1 c2 ∧
    ws = fw ++ (c!"LTG" ++ ty) :: (ds ++ hd) ∧
    g = { freq := f
          dist := lastDistance ds
          typeInCloud := decide (c!"IC" ∈ (inPairs ty).take 6)
          typeCloudCloud := decide (c!"CC" ∈ (inPairs ty).take 6)
          typeCloudGround := decide (c!"CG" ∈ (inPairs ty).take 6)
          typeCloudAir := decide (c!"CA" ∈ (inPairs ty).take 6)
          typeUnknown := decide (∃ p ∈ (inPairs ty).take 6, p ∉ lightningCodes)
          dir1from := f1, dir1to := t1, dir2from := f2, dir2to := t2 }

theorem typeLoop_spec (n : Nat) (s : Str) (g : LightningGroup) :
    typeLoop n s g = { g with
      typeInCloud := g.typeInCloud || decide (c!"IC" ∈ (inPairs s).take n)
      typeCloudCloud := g.typeCloudCloud || decide (c!"CC" ∈ (inPairs s).take n)
      typeCloudGround := g.typeCloudGround || decide (c!"CG" ∈ (inPairs s).take n)
      typeCloudAir := g.typeCloudAir || decide (c!"CA" ∈ (inPairs s).take n)
      typeUnknown := g.typeUnknown || decide (∃ p ∈ (inPairs s).take n, p ∉ lightningCodes) } := by
  induction n generalizing s g with
  | zero => simp [typeLoop]
  | succ n ih =>
    have hcons : s = [] ∨ inPairs s = s.take 2 :: inPairs (s.drop 2) := by
      cases s with
      | nil => exact Or.inl rfl
      | cons a t =>
        right
        cases t with
        | nil => rfl
        | cons b t => rfl
    rcases hcons with rfl | hp
    · simp [typeLoop, inPairs]
    · have hne : s.isEmpty = false := by
        cases s with
        | nil => simp [inPairs] at hp
        | cons a t => rfl
      unfold typeLoop
      simp only [hne, Bool.false_eq_true, if_false, hp, List.take_succ_cons, List.mem_cons,
        exists_eq_or_imp]
      generalize s.take 2 = p
      generalize s.drop 2 = r
      by_cases h1 : p = c!"IC"
      · subst h1
        rw [if_pos rfl, ih]
        simp [lightningCodes]
      rw [if_neg h1]
      by_cases h2 : p = c!"CC"
      · subst h2
        rw [if_pos rfl, ih]
        simp [lightningCodes]
      rw [if_neg h2]
      by_cases h3 : p = c!"CG"
      · subst h3
        rw [if_pos rfl, ih]
        simp [lightningCodes]
      rw [if_neg h3]
      by_cases h4 : p = c!"CA"
      · subst h4
        rw [if_pos rfl, ih]
        simp [lightningCodes]
      rw [if_neg h4, ih]
      simp [lightningCodes, h1, h2, h3, h4, Ne.symm h1, Ne.symm h2, Ne.symm h3, Ne.symm h4]

/-- The group for the types of lightning alone. -/
def typesGroup (ty : Str) : LightningGroup :=
  { typeInCloud := decide (c!"IC" ∈ (inPairs ty).take 6)
    typeCloudCloud := decide (c!"CC" ∈ (inPairs ty).take 6)
    typeCloudGround := decide (c!"CG" ∈ (inPairs ty).take 6)
    typeCloudAir := decide (c!"CA" ∈ (inPairs ty).take 6)
    typeUnknown := decide (∃ p ∈ (inPairs ty).take 6, p ∉ lightningCodes) }

theorem ltg_iff (s : Str) (g : LightningGroup) :
    fromLtgGroup s = some g ↔ ∃ ty, s = c!"LTG" ++ ty ∧ g = typesGroup ty := by
  have hspec : ∀ ty, typeLoop 6 ty {} = typesGroup ty := by
    intro ty
    rw [typeLoop_spec]
    simp [typesGroup]
  constructor
  · intro h
    unfold fromLtgGroup at h
    ite_cases h
    · rename_i e
      subst e
      exact ⟨[], rfl, by rw [← Option.some.inj h]; simp [typesGroup, inPairs]⟩
    · cases h
    · cases h
    · rename_i e1 e2 e3
      refine ⟨s.drop 3, ?_, by rw [← Option.some.inj h, hspec]⟩
      simp only [ne_eq, not_not] at e3
      rw [← e3]
      simp [substr]
  · rintro ⟨ty, rfl, rfl⟩
    unfold fromLtgGroup
    by_cases h : c!"LTG" ++ ty = c!"LTG"
    · rw [if_pos h]
      have : ty = [] := by simpa using h
      subst this
      simp [typesGroup, inPairs]
    · rw [if_neg h, if_neg (by simp), if_neg (by simp [substr])]
      simp only [List.cons_append, List.nil_append, List.drop_succ_cons, List.drop_zero, hspec]

/-- What `append` does to a complete group without directions. -/
theorem append_first (g : LightningGroup) (s : Str) (h0 : g.incomplete = false)
    (h1 : g.dir1from = none) (h2 : g.dir1to = none) (h3 : g.dir2from = none)
    (h4 : g.dir2to = none) : g.append s =
      if s = c!"DSNT" then ({ g with dist := { distModifier := .DISTANT } }, .APPENDED)
      else if s = c!"VC" then ({ g with dist := { distModifier := .VICINITY } }, .APPENDED)
      else match heading s with
        | some (f, t) => ({ g with dir1from := f, dir1to := t }, .APPENDED)
        | none => (g, .NOT_APPENDED) := by
  obtain ⟨fr, di, a, b, c, d, e, d1, d2, d3, d4, inc⟩ := g
  simp only at h0 h1 h2 h3 h4
  subst h0 h1 h2 h3 h4
  unfold LightningGroup.append heading
  simp only [isOmittedDir1, isOmittedDir2, Option.isNone_none, Bool.and_self, Bool.not_true,
    Bool.false_eq_true, if_false, Distance.makeDistant, Distance.makeVicinity]
  split
  · rfl
  split
  · rfl
  cases fromCardinalString s true with
  | some d => rfl
  | none =>
    cases fromSectorString s with
    | some p => rfl
    | none => rfl

/-- What `append` does to a complete group with one direction. -/
theorem append_second (g : LightningGroup) (s : Str) (d : Direction) (h0 : g.incomplete = false)
    (h1 : g.dir1from = some d) (h3 : g.dir2from = none) (h4 : g.dir2to = none) : g.append s =
      if s = c!"AND" then (g, .APPENDED)
      else match heading s with
        | some (f, t) => ({ g with dir2from := f, dir2to := t }, .APPENDED)
        | none => (g, .NOT_APPENDED) := by
  obtain ⟨fr, di, a, b, c, d', e, d1, d2, d3, d4, inc⟩ := g
  simp only at h0 h1 h3 h4
  subst h0 h1 h3 h4
  unfold LightningGroup.append heading
  simp only [isOmittedDir1, isOmittedDir2, Option.isNone_none, Option.isNone_some, Bool.and_self, Bool.not_true, Bool.false_and, Bool.not_false,
    Bool.false_eq_true, if_false, if_true]
  split
  · rfl
  cases fromCardinalString s true with
  | some d => rfl
  | none =>
    cases fromSectorString s with
    | some p => rfl
    | none => rfl

/-- What `append` does to a group with two directions. -/
theorem append_third (g : LightningGroup) (s : Str) (d : Direction) (h0 : g.incomplete = false)
    (h3 : g.dir2from = some d) : g.append s = (g, .NOT_APPENDED) := by
  unfold LightningGroup.append
  simp [h0, h3, isOmittedDir2]

/-- What `append` does to a group made of a frequency alone. -/
theorem append_types (g : LightningGroup) (s : Str) (h0 : g.incomplete = true) : g.append s =
      match fromLtgGroup s with
      | some ltg => ({ ltg with freq := g.freq }, .APPENDED)
      | none => (g, .GROUP_INVALIDATED) := by
  unfold LightningGroup.append
  simp only [h0, if_true]
  cases fromLtgGroup s <;> rfl

theorem ltg_frequency {w : Str} {f : Frequency} (h : ([w], f) ∈ frequencyWords) :
    fromLtgGroup w = none := by
  simp only [frequencyWords, List.mem_cons, Prod.mk.injEq, List.cons.injEq, and_true,
    List.not_mem_nil, or_false, reduceCtorEq, false_and, false_or] at h
  rcases h with ⟨rfl, -⟩ | ⟨rfl, -⟩ | ⟨rfl, -⟩ <;> decide

theorem parse_lightning (s : Str) (g : LightningGroup) : LightningGroup.parse s .RMK = some g ↔
    (∃ f, ([s], f) ∈ frequencyWords ∧ g = { freq := f, incomplete := true }) ∨
    (∃ ty, s = c!"LTG" ++ ty ∧ g = typesGroup ty) := by
  rw [← ltg_iff]
  unfold LightningGroup.parse
  simp only [frequencyWords, List.mem_cons, Prod.mk.injEq, List.cons.injEq, and_true,
    List.not_mem_nil, or_false, reduceCtorEq, false_and, false_or, ne_eq, not_true_eq_false,
    if_false]
  by_cases h1 : s = c!"OCNL"
  · subst h1
    simp [show fromLtgGroup c!"OCNL" = none from by decide, eq_comm]
  by_cases h2 : s = c!"FRQ"
  · subst h2
    simp [show fromLtgGroup c!"FRQ" = none from by decide, eq_comm]
  by_cases h3 : s = c!"CONS"
  · subst h3
    simp [show fromLtgGroup c!"CONS" = none from by decide, eq_comm]
  rw [if_neg h1, if_neg h2, if_neg h3]
  simp [h1, h2, h3]

theorem lastDistance_snoc (ds : List Str) (w : Str) : lastDistance (ds ++ [w]) =
    if w = c!"DSNT" then { distModifier := .DISTANT } else { distModifier := .VICINITY } := by
  simp [lastDistance]

/-- C60. A sequence of texts is taken for one lightning group exactly if it is lightning as
written, and the group has the values written. -/
theorem C60_history (ws : List Str) (g : LightningGroup) :
    taken (LightningGroup.parse · .RMK) LightningGroup.append ws = some g ↔
      ∃ c1 c2, LightningText ws g c1 c2 := by
  constructor
  · induction ws using List.reverseRecOn generalizing g with
    | nil => intro h; cases h
    | append_singleton ws w ih =>
      intro h
      by_cases hne : ws = []
      · subst hne
        rw [List.nil_append, taken_one] at h
        rcases (parse_lightning w g).mp h with ⟨f, hf, rfl⟩ | ⟨ty, rfl, rfl⟩
        · exact ⟨_, _, Or.inl ⟨w, f, hf, rfl, rfl, rfl, rfl⟩⟩
        · exact ⟨_, _, Or.inr ⟨[], .NONE, ty, [], [], none, none, none, none, by simp [frequencyWords],
            by simp, .none, by simp, rfl⟩⟩
      · obtain ⟨g0, h0, ha⟩ := (taken_snoc hne w g).mp h
        obtain ⟨c1, c2, ⟨w0, f, hf, rfl, rfl, rfl, rfl⟩ |
          ⟨fw, f, ty, ds, hd, f1, t1, f2, t2, hf, hds, hhd, rfl, rfl⟩⟩ := ih _ h0
        · rw [append_types _ _ rfl] at ha
          cases hl : fromLtgGroup w with
          | none => simp [hl] at ha
          | some l =>
            obtain ⟨ty, rfl, rfl⟩ := (ltg_iff _ _).mp hl
            simp only [hl, Prod.mk.injEq, and_true] at ha
            subst ha
            exact ⟨_, _, Or.inr ⟨[w0], f, ty, [], [], none, none, none, none, hf, by simp, .none,
              by simp, rfl⟩⟩
        · cases hhd with
          | none =>
            rw [append_first _ _ rfl rfl rfl rfl rfl] at ha
            by_cases e1 : w = c!"DSNT"
            · rw [if_pos e1] at ha
              simp only [Prod.mk.injEq, and_true] at ha
              subst ha
              refine ⟨_, _, Or.inr ⟨fw, f, ty, ds ++ [w], [], none, none, none, none, hf, ?_, .none,
                by simp, by rw [lastDistance_snoc, if_pos e1]⟩⟩
              intro x hx
              rcases List.mem_append.mp hx with hx | hx
              · exact hds x hx
              · exact Or.inl ((List.mem_singleton.mp hx).trans e1)
            rw [if_neg e1] at ha
            by_cases e2 : w = c!"VC"
            · rw [if_pos e2] at ha
              simp only [Prod.mk.injEq, and_true] at ha
              subst ha
              refine ⟨_, _, Or.inr ⟨fw, f, ty, ds ++ [w], [], none, none, none, none, hf, ?_, .none,
                by simp, by rw [lastDistance_snoc, if_neg e1]⟩⟩
              intro x hx
              rcases List.mem_append.mp hx with hx | hx
              · exact hds x hx
              · exact Or.inr ((List.mem_singleton.mp hx).trans e2)
            rw [if_neg e2] at ha
            cases hh : heading w with
            | none => simp [hh] at ha
            | some p =>
              obtain ⟨a, b⟩ := p
              simp only [hh, Prod.mk.injEq, and_true] at ha
              subst ha
              obtain ⟨c, hc⟩ := (heading_iff _ _ _).mp hh
              exact ⟨_, _, Or.inr ⟨fw, f, ty, ds, [w], a, b, none, none, hf, hds,
                .one (ands := []) hc (by simp), by simp, rfl⟩⟩
          | @one w1 ands f1 t1 c hw hands =>
            obtain ⟨d, rfl⟩ := heading_from hw
            rw [append_second _ _ d rfl rfl rfl rfl] at ha
            by_cases e1 : w = c!"AND"
            · rw [if_pos e1] at ha
              simp only [Prod.mk.injEq, and_true] at ha
              subst ha
              refine ⟨_, _, Or.inr ⟨fw, f, ty, ds, w1 :: (ands ++ [w]), _, _, none, none, hf, hds,
                .one hw ?_, by simp, rfl⟩⟩
              intro x hx
              rcases List.mem_append.mp hx with hx | hx
              · exact hands x hx
              · exact (List.mem_singleton.mp hx).trans e1
            rw [if_neg e1] at ha
            cases hh : heading w with
            | none => simp [hh] at ha
            | some p =>
              obtain ⟨a, b⟩ := p
              simp only [hh, Prod.mk.injEq, and_true] at ha
              subst ha
              obtain ⟨c, hc⟩ := (heading_iff _ _ _).mp hh
              exact ⟨_, _, Or.inr ⟨fw, f, ty, ds, w1 :: ands ++ [w], _, _, a, b, hf, hds,
                .two hw hands hc, by simp, rfl⟩⟩
          | two hw hands hw' =>
            obtain ⟨d, rfl⟩ := heading_from hw'
            rw [append_third _ _ d rfl rfl] at ha
            simp at ha
  · rintro ⟨c1, c2, h⟩
    rcases h with ⟨w, f, hf, rfl, rfl, -, -⟩ | ⟨fw, f, ty, ds, hd, f1, t1, f2, t2, hf, hds, hhd, rfl, rfl⟩
    · rw [taken_one]
      exact (parse_lightning _ _).mpr (Or.inl ⟨f, hf, rfl⟩)
    · have base : taken (LightningGroup.parse · .RMK) LightningGroup.append (fw ++ [c!"LTG" ++ ty]) =
          some { typesGroup ty with freq := f } := by
        have hl : fromLtgGroup (c!"LTG" ++ ty) = some (typesGroup ty) := (ltg_iff _ _).mpr ⟨ty, rfl, rfl⟩
        cases fw with
        | nil =>
          rw [List.nil_append, taken_one]
          simp only [frequencyWords, List.mem_cons, Prod.mk.injEq, reduceCtorEq, true_and, false_and,
            or_false, List.not_mem_nil] at hf
          subst hf
          exact (parse_lightning _ _).mpr (Or.inr ⟨ty, rfl, rfl⟩)
        | cons w t =>
          have ht : t = [] := by
            simp only [frequencyWords, List.mem_cons, Prod.mk.injEq, reduceCtorEq, false_and,
              List.cons.injEq, List.not_mem_nil, or_false, false_or] at hf
            tauto
          subst ht
          apply (taken_snoc (by simp) _ _).mpr
          refine ⟨{ freq := f, incomplete := true }, ?_, ?_⟩
          · rw [taken_one]
            exact (parse_lightning _ _).mpr (Or.inl ⟨f, hf, rfl⟩)
          · rw [append_types _ _ rfl, hl]
      have dist : ∀ ds : List Str, (∀ w ∈ ds, w = c!"DSNT" ∨ w = c!"VC") →
          taken (LightningGroup.parse · .RMK) LightningGroup.append (fw ++ [c!"LTG" ++ ty] ++ ds) =
            some { typesGroup ty with freq := f, dist := lastDistance ds } := by
        intro ds
        induction ds using List.reverseRecOn with
        | nil => intro _; rw [List.append_nil, base]; rfl
        | append_singleton ds w ih =>
          intro hds
          rw [← List.append_assoc]
          apply (taken_snoc (by simp) _ _).mpr
          refine ⟨_, ih (fun x hx => hds x (by simp [hx])), ?_⟩
          rw [append_first _ _ rfl rfl rfl rfl rfl, lastDistance_snoc]
          rcases hds w (by simp) with rfl | rfl
          · rfl
          · rfl
      have one : ∀ {w1 f1 t1 c}, HeadingText w1 f1 t1 c → ∀ ands : List Str,
          (∀ x ∈ ands, x = c!"AND") →
          taken (LightningGroup.parse · .RMK) LightningGroup.append
            (fw ++ [c!"LTG" ++ ty] ++ ds ++ w1 :: ands) =
          some { typesGroup ty with freq := f, dist := lastDistance ds, dir1from := f1, dir1to := t1 } := by
        intro w1 f1 t1 c hw ands
        have hh := (heading_iff _ _ _).mpr ⟨c, hw⟩
        induction ands using List.reverseRecOn with
        | nil =>
          intro _
          apply (taken_snoc (by simp) _ _).mpr
          refine ⟨_, dist ds hds, ?_⟩
          rw [append_first _ _ rfl rfl rfl rfl rfl, hh]
          have n1 : w1 ≠ c!"DSNT" := by
            rintro rfl; rw [heading_keyword (by simp)] at hh; cases hh
          have n2 : w1 ≠ c!"VC" := by
            rintro rfl; rw [heading_keyword (by simp)] at hh; cases hh
          rw [if_neg n1, if_neg n2]
        | append_singleton ands a ih =>
          intro hands
          rw [← List.cons_append, ← List.append_assoc]
          apply (taken_snoc (by simp) _ _).mpr
          refine ⟨_, ih (fun x hx => hands x (by simp [hx])), ?_⟩
          obtain ⟨d, rfl⟩ := heading_from hw
          rw [append_second _ _ d rfl rfl rfl rfl, if_pos (hands a (by simp))]
      cases hhd with
      | none => rw [List.append_nil]
                have := dist ds hds
                simp only [List.append_assoc, List.singleton_append] at this
                exact this
      | @one w1 ands f1 t1 c hw hands =>
        have := one hw ands hands
        simp only [List.append_assoc, List.singleton_append] at this
        exact this
      | @two w1 ands f1 t1 c w2 f2 t2 c' hw hands hw' =>
        have h1 := one hw ands hands
        have e : fw ++ (c!"LTG" ++ ty) :: (ds ++ (w1 :: ands ++ [w2])) =
          fw ++ [c!"LTG" ++ ty] ++ ds ++ w1 :: ands ++ [w2] := by simp
        rw [e]
        apply (taken_snoc (by simp) _ _).mpr
        refine ⟨_, h1, ?_⟩
        have hh := (heading_iff _ _ _).mpr ⟨_, hw'⟩
        have n1 : w2 ≠ c!"AND" := by
          rintro rfl; rw [heading_keyword (by simp)] at hh; cases hh
        obtain ⟨d, rfl⟩ := heading_from hw
        rw [append_second _ _ d rfl rfl rfl rfl, if_neg n1, hh]
        rfl

/-- C60. Lightning is recognised in remarks only. -/
theorem C60_remark (s : Str) (p : ReportPart) (h : p ≠ .RMK) : LightningGroup.parse s p = none := by
  simp [LightningGroup.parse, h]

/-- C60. A text that does not belong to the group leaves the group as it is, and makes it invalid
exactly if the group is a frequency without the types of lightning. -/
theorem C60_rejected (g : LightningGroup) (s : Str) (h : (g.append s).2 ≠ .APPENDED) :
    (g.append s).1 = g ∧ ((g.append s).2 = .GROUP_INVALIDATED ↔ g.incomplete = true) := by
  unfold LightningGroup.append at *
  cases hi : g.incomplete with
  | true =>
    simp only [hi, if_true] at *
    cases hl : fromLtgGroup s with
    | none => simp
    | some l => simp [hl] at h
  | false =>
    simp only [hi, Bool.false_eq_true, if_false] at *
    repeat' split
    all_goals simp_all

/-- C60. The directions listed for lightning are those of the directions and sectors written,
without repetitions, the first one first; the list is always obtained. -/
theorem C60_directions (ws : List Str) (g : LightningGroup) (c1 c2 : List Cardinal)
    (h : LightningText ws g c1 c2) :
    ∃ v, (∀ fuel, 8 ≤ fuel → g.directions fuel = some v) ∧ (v.map (·.cardinal)).Nodup ∧
      c1 <+: v.map (·.cardinal) ∧ ∀ c, c ∈ v.map (·.cardinal) ↔ c ∈ c1 ∨ c ∈ c2 := by
  rcases h with ⟨w, f, hf, rfl, rfl, rfl, rfl⟩ | ⟨fw, f, ty, ds, hd, f1, t1, f2, t2, hf, hds, hhd, rfl, rfl⟩
  · exact two_headings (Or.inl ⟨rfl, rfl, rfl⟩) (Or.inl ⟨rfl, rfl, rfl⟩)
  · apply two_headings
    · cases hhd with
      | none => exact Or.inl ⟨rfl, rfl, rfl⟩
      | one h _ => exact Or.inr ⟨_, h⟩
      | two h _ _ => exact Or.inr ⟨_, h⟩
    · cases hhd with
      | none => exact Or.inl ⟨rfl, rfl, rfl⟩
      | one h _ => exact Or.inl ⟨rfl, rfl, rfl⟩
      | two _ _ h => exact Or.inr ⟨_, h⟩

/-- C60. A lightning group is valid exactly if none of the first six codes after `LTG` is
unknown. -/
theorem C60_valid (ws : List Str) (ty : Str) (fw ds hd : List Str) (g : LightningGroup)
    (c1 c2 : List Cardinal) (h : LightningText ws g c1 c2) (hfw : ∃ f, (fw, f) ∈ frequencyWords)
    (hw : ws = fw ++ (c!"LTG" ++ ty) :: (ds ++ hd)) :
    g.isValid = true ↔ ∀ p ∈ (inPairs ty).take 6, p ∈ lightningCodes := by
  have nolt : ∀ {fw : List Str} {f : Frequency} {ty : Str}, (fw, f) ∈ frequencyWords →
      c!"LTG" ++ ty ∉ fw := by
    intro fw f ty hf hm
    simp only [frequencyWords, List.mem_cons, Prod.mk.injEq, List.not_mem_nil, or_false] at hf
    rcases hf with ⟨rfl, -⟩ | ⟨rfl, -⟩ | ⟨rfl, -⟩ | ⟨rfl, -⟩ <;> simp at hm
  have len : ∀ {fw : List Str} {f : Frequency}, (fw, f) ∈ frequencyWords →
      fw = [] ∨ ∃ w, fw = [w] := by
    intro fw f hf
    simp only [frequencyWords, List.mem_cons, Prod.mk.injEq, List.not_mem_nil, or_false] at hf
    rcases hf with ⟨rfl, -⟩ | ⟨rfl, -⟩ | ⟨rfl, -⟩ | ⟨rfl, -⟩ <;> simp
  obtain ⟨f0, hf0⟩ := hfw
  rcases h with ⟨w, f, hf, rfl, rfl, -, -⟩ | ⟨fw', f, ty', ds', hd', f1, t1, f2, t2, hf, -, -, e, rfl⟩
  · exfalso
    rcases len hf0 with rfl | ⟨x, rfl⟩
    · simp only [List.nil_append, List.cons.injEq] at hw
      exact nolt hf (by rw [← hw.1]; exact List.mem_singleton.mpr rfl)
    · simp at hw
  · rw [hw] at e
    have : ty = ty' := by
      rcases len hf0 with rfl | ⟨x, rfl⟩ <;> rcases len hf with rfl | ⟨x', rfl⟩
      · simpa using (List.cons.inj e).1
      · simp only [List.nil_append, List.singleton_append, List.cons.injEq] at e
        exact absurd (List.mem_singleton.mpr e.1) (nolt hf)
      · simp only [List.nil_append, List.singleton_append, List.cons.injEq] at e
        exact absurd (List.mem_singleton.mpr e.1.symm) (nolt hf0)
      · simp only [List.singleton_append, List.cons.injEq] at e
        simpa using e.2.1
    subst this
    simp [LightningGroup.isValid]

example : taken (LightningGroup.parse · .RMK) LightningGroup.append
      [c!"FRQ", c!"LTGICCG", c!"DSNT", c!"NE-SE", c!"AND", c!"W"] =
    some { freq := .FREQUENT, dist := { distModifier := .DISTANT }, typeInCloud := true,
           typeCloudGround := true, dir1from := some ⟨45, .VALUE_CARDINAL⟩,
           dir1to := some ⟨135, .VALUE_CARDINAL⟩, dir2from := some ⟨270, .VALUE_CARDINAL⟩ } := by
  decide +kernel

example : LightningText [c!"LTGIC", c!"OHD"]
    { typeInCloud := true, dir1from := some ⟨0, .OVERHEAD⟩ } [.OHD] [] :=
  Or.inr ⟨[], .NONE, c!"IC", [], [c!"OHD"], _, _, none, none, by simp [frequencyWords], by simp,
    .one .overhead (ands := []) (by simp), rfl, by decide⟩

end Metaf.Props

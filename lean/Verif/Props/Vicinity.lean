import Verif.Props.Headings

/-!
Property C61: phenomena observed in the vicinity are those written.
-/

namespace Metaf.Props

set_option linter.unusedSectionVars false

open Metaf Metaf.Spec Metaf.Direction Metaf.VicinityGroup

variable [FloatSem]

/-- The words for the phenomena, except for rotor clouds. -/
def vicinityWords : List (Str × VicinityType) :=
  [(c!"TS", .THUNDERSTORM), (c!"CB", .CUMULONIMBUS), (c!"CBMAM", .CUMULONIMBUS_MAMMATUS),
   (c!"ACC", .ALTOCUMULUS_CASTELLANUS), (c!"TCU", .TOWERING_CUMULUS),
   (c!"SCSL", .STRATOCUMULUS_STANDING_LENTICULAR), (c!"ACSL", .ALTOCUMULUS_STANDING_LENTICULAR),
   (c!"CCSL", .CIRROCUMULUS_STANDING_LENTICULAR), (c!"VIRGA", .VIRGA),
   (c!"VCSH", .PRECIPITATION_IN_VICINITY), (c!"FOG", .FOG), (c!"FG", .FOG), (c!"HAZE", .HAZE),
   (c!"HZ", .HAZE), (c!"SMOKE", .SMOKE), (c!"FU", .SMOKE), (c!"BLSN", .BLOWING_SNOW),
   (c!"BLDU", .BLOWING_DUST), (c!"BLSA", .BLOWING_SAND), (c!"MIFG", .FOG_SHALLOW),
   (c!"BCFG", .FOG_PATCHES)]

/-- The texts naming a phenomenon: one word, or two for rotor clouds. -/
def KindWords (kw : List Str) (t : VicinityType) : Prop :=
  (∃ w, (w, t) ∈ vicinityWords ∧ kw = [w]) ∨ (kw = [c!"ROTOR", c!"CLD"] ∧ t = .ROTOR_CLOUD)

/-- Texts of distances: distant, in the vicinity, or one or two digits of kilometres. -/
def DistanceWord (w : Str) (d : Distance) : Prop :=
  (w = c!"DSNT" ∧ d = { distModifier := .DISTANT }) ∨
  (w = c!"VC" ∧ d = { distModifier := .VICINITY }) ∨
  ∃ k n, (k = 1 ∨ k = 2) ∧ n < 10 ^ k ∧ w = decimal k n ++ c!"KM" ∧
    d = ⟨.NONE, some (1000 * n), .METERS⟩

/-- A distance that may be omitted. -/
def DistanceWords (ds : List Str) (d : Distance) : Prop :=
  (ds = [] ∧ d = {}) ∨ ∃ w, DistanceWord w d ∧ ds = [w]

/-- A second direction: omitted, or a direction possibly preceded by AND. -/
inductive SecondHeading : List Str → Option Direction → Option Direction → List Cardinal → Prop
  | none : SecondHeading [] none none []
  | bare {w f t c} : HeadingText w f t c → SecondHeading [w] f t c
  | and {w f t c} : HeadingText w f t c → SecondHeading [c!"AND", w] f t c

/-- Texts of the direction of movement. -/
def MovementWord (w : Str) (d : Direction) : Prop :=
  (∃ n, (w, n) ∈ octantNames ∧ d = ⟨n, .VALUE_CARDINAL⟩) ∨ (w = c!"NDV" ∧ d = ⟨0, .NDV⟩) ∨
  (w = c!"UNKNOWN" ∧ d = ⟨0, .UNKNOWN⟩)

/-- A phenomenon in the vicinity as written: its name, distance, one or two directions and the
direction of movement. The texts may end early; the last component of the group says after which of
them. -/
inductive VicinityText : List Str → VicinityGroup → List Cardinal → List Cardinal → Prop
  | rotor : VicinityText [c!"ROTOR"] { t := .ROTOR_CLOUD, incompleteType := .EXPECT_CLD } [] []
  | kind {kw t} : KindWords kw t →
      VicinityText kw { t := t, incompleteType := .EXPECT_DIST_DIR1 } [] []
  | distance {kw t w d} : KindWords kw t → DistanceWord w d →
      VicinityText (kw ++ [w]) { t := t, dist := d, incompleteType := .EXPECT_DIR1 } [] []
  | heading {kw t ds d w f1 t1 c} : KindWords kw t → DistanceWords ds d → HeadingText w f1 t1 c →
      VicinityText (kw ++ ds ++ [w])
        { t := t, dist := d, dir1from := f1, dir1to := t1, incompleteType := .EXPECT_DIR2_MOV } c []
  | headingAnd {kw t ds d w f1 t1 c} : KindWords kw t → DistanceWords ds d → HeadingText w f1 t1 c →
      VicinityText (kw ++ ds ++ [w] ++ [c!"AND"])
        { t := t, dist := d, dir1from := f1, dir1to := t1, incompleteType := .EXPECT_DIR2 } c []
  | headings {kw t ds d w f1 t1 c hs f2 t2 c'} : KindWords kw t → DistanceWords ds d →
      HeadingText w f1 t1 c → SecondHeading hs f2 t2 c' → hs ≠ [] →
      VicinityText (kw ++ ds ++ [w] ++ hs)
        { t := t, dist := d, dir1from := f1, dir1to := t1, dir2from := f2, dir2to := t2,
          incompleteType := .EXPECT_MOV } c c'
  | moving {kw t ds d w f1 t1 c hs f2 t2 c'} : KindWords kw t → DistanceWords ds d →
      HeadingText w f1 t1 c → SecondHeading hs f2 t2 c' →
      VicinityText (kw ++ ds ++ [w] ++ hs ++ [c!"MOV"])
        { t := t, dist := d, dir1from := f1, dir1to := t1, dir2from := f2, dir2to := t2,
          incompleteType := .EXPECT_MOVDIR } c c'
  | moved {kw t ds d w f1 t1 c hs f2 t2 c' m md} : KindWords kw t → DistanceWords ds d →
      HeadingText w f1 t1 c → SecondHeading hs f2 t2 c' → MovementWord m md →
      VicinityText (kw ++ ds ++ [w] ++ hs ++ [c!"MOV"] ++ [m])
        { t := t, dist := d, dir1from := f1, dir1to := t1, dir2from := f2, dir2to := t2,
          movDir := md, incompleteType := .NONE } c c'

theorem parse_vicinity (s : Str) (g : VicinityGroup) : VicinityGroup.parse s .RMK = some g ↔
    (s = c!"ROTOR" ∧ g = { t := .ROTOR_CLOUD, incompleteType := .EXPECT_CLD }) ∨
    ∃ t, (s, t) ∈ vicinityWords ∧ g = { t := t, incompleteType := .EXPECT_DIST_DIR1 } := by
  constructor
  · intro h
    unfold VicinityGroup.parse at h
    ite_cases h
    all_goals first
      | (cases h; done)
      | skip
    all_goals obtain rfl := Option.some.inj h
    all_goals clear h
    all_goals first
      | (subst s; exact Or.inl ⟨rfl, rfl⟩)
      | (subst s; exact Or.inr ⟨_, by simp [vicinityWords], rfl⟩)
      | (rename_i h; rcases h with h | h <;> (subst s; exact Or.inr ⟨_, by simp [vicinityWords], rfl⟩))
  · rintro (⟨rfl, rfl⟩ | ⟨t, h, rfl⟩)
    · rfl
    · simp only [vicinityWords, List.mem_cons, Prod.mk.injEq, List.not_mem_nil, or_false] at h
      rcases h with ⟨rfl, rfl⟩ | ⟨rfl, rfl⟩ | ⟨rfl, rfl⟩ | ⟨rfl, rfl⟩ | ⟨rfl, rfl⟩ | ⟨rfl, rfl⟩ |
        ⟨rfl, rfl⟩ | ⟨rfl, rfl⟩ | ⟨rfl, rfl⟩ | ⟨rfl, rfl⟩ | ⟨rfl, rfl⟩ | ⟨rfl, rfl⟩ | ⟨rfl, rfl⟩ |
        ⟨rfl, rfl⟩ | ⟨rfl, rfl⟩ | ⟨rfl, rfl⟩ | ⟨rfl, rfl⟩ | ⟨rfl, rfl⟩ | ⟨rfl, rfl⟩ | ⟨rfl, rfl⟩ |
        ⟨rfl, rfl⟩ <;> rfl

theorem appendDistance_iff (g g' : VicinityGroup) (s : Str) : g.appendDistance s = some g' ↔
    ∃ d, DistanceWord s d ∧ g' = { g with dist := d } := by
  unfold VicinityGroup.appendDistance DistanceWord
  by_cases h1 : s = c!"DSNT"
  · subst h1
    rw [if_pos rfl]
    constructor
    · intro h
      exact ⟨_, Or.inl ⟨rfl, rfl⟩, (Option.some.inj h).symm⟩
    · rintro ⟨d, (⟨-, rfl⟩ | ⟨h, -⟩ | h), rfl⟩
      · rfl
      · cases h
      · have := (C47_kilometers _ _).mpr h
        rw [show Distance.fromKmString c!"DSNT" = none from by decide +kernel] at this
        cases this
  rw [if_neg h1]
  by_cases h2 : s = c!"VC"
  · subst h2
    rw [if_pos rfl]
    constructor
    · intro h
      exact ⟨_, Or.inr (Or.inl ⟨rfl, rfl⟩), (Option.some.inj h).symm⟩
    · rintro ⟨d, (⟨h, -⟩ | ⟨-, rfl⟩ | h), rfl⟩
      · cases h
      · rfl
      · have := (C47_kilometers _ _).mpr h
        rw [show Distance.fromKmString c!"VC" = none from by decide +kernel] at this
        cases this
  rw [if_neg h2]
  simp only [← C47_kilometers, h1, h2, false_and, false_or]
  cases Distance.fromKmString s with
  | none => simp
  | some d => simp [eq_comm]

theorem appendDir1_iff (g g' : VicinityGroup) (s : Str) (h : g.dir1to = none) :
    g.appendDir1 s = some g' ↔
      ∃ f t, heading s = some (f, t) ∧ g' = { g with dir1from := f, dir1to := t } := by
  obtain ⟨t, di, d1, d2, d3, d4, m, i⟩ := g
  simp only at h
  subst h
  unfold VicinityGroup.appendDir1 heading
  cases fromCardinalString s true with
  | some d => simp [eq_comm]
  | none =>
    cases fromSectorString s with
    | none => simp
    | some p => simp [eq_comm]

theorem appendDir2_iff (g g' : VicinityGroup) (s : Str) (h : g.dir2to = none) :
    g.appendDir2 s = some g' ↔
      ∃ f t, heading s = some (f, t) ∧ g' = { g with dir2from := f, dir2to := t } := by
  obtain ⟨t, di, d1, d2, d3, d4, m, i⟩ := g
  simp only at h
  subst h
  unfold VicinityGroup.appendDir2 heading
  cases fromCardinalString s true with
  | some d => simp [eq_comm]
  | none =>
    cases fromSectorString s with
    | none => simp
    | some p => simp [eq_comm]

theorem movement_iff (s : Str) (d : Direction) :
    fromCardinalString s false true = some d ↔ MovementWord s d := by
  rw [C47_cardinal]
  simp [MovementWord]

theorem distance_not_heading {s : Str} {d : Distance} (h : DistanceWord s d) : heading s = none := by
  rcases h with ⟨rfl, -⟩ | ⟨rfl, -⟩ | ⟨k, n, hk, hn, rfl, -⟩
  · exact heading_keyword (by simp)
  · exact heading_keyword (by simp)
  · cases hh : heading (decimal k n ++ c!"KM") with
    | none => rfl
    | some p =>
      exfalso
      obtain ⟨f, t⟩ := p
      obtain ⟨c, hc⟩ := (heading_iff _ f t).mp hh
      have hlast : 'M' ∈ decimal k n ++ c!"KM" := by simp
      generalize decimal k n ++ c!"KM" = s at hc hlast
      have oct : ∀ {w}, IsOctant w → 'M' ∉ w := by
        intro w hw
        rcases octant_iff.mp hw with ⟨a, ha, rfl⟩ | ⟨a, ha, b, hb, rfl⟩
        · simp only [List.mem_cons, List.not_mem_nil, or_false] at ha
          rcases ha with rfl | rfl | rfl | rfl <;> decide
        · simp only [List.mem_cons, List.not_mem_nil, or_false] at ha hb
          rcases ha with rfl | rfl <;> rcases hb with rfl | rfl <;> decide
      cases hc with
      | octant h => exact oct ⟨_, h⟩ hlast
      | ndv => simp at hlast
      | overhead => simp at hlast
      | allQuadrants => simp at hlast
      | sector hx hy hm =>
        rw [dashed_eq] at hlast
        simp only [List.flatMap_append, List.mem_append, List.mem_flatMap, List.mem_cons,
          List.not_mem_nil, or_false] at hlast
        rcases hlast with h | ⟨v, hv, h⟩ | ⟨v, rfl, h⟩
        · exact oct ⟨_, hx⟩ h
        · rcases h with h | h
          · cases h
          · exact oct (hm v hv) h
        · rcases h with h | h
          · cases h
          · exact oct ⟨_, hy⟩ h

/-- C61. A sequence of texts is taken for one group exactly if it is a phenomenon in the vicinity as
written, and the group has the values written. -/
theorem C61_history (ws : List Str) (g : VicinityGroup) :
    taken (VicinityGroup.parse · .RMK) VicinityGroup.append ws = some g ↔
      ∃ c1 c2, VicinityText ws g c1 c2 := by
  constructor
  · induction ws using List.reverseRecOn generalizing g with
    | nil => intro h; cases h
    | append_singleton ws w ih =>
      intro h
      by_cases hne : ws = []
      · subst hne
        rw [List.nil_append, taken_one] at h
        rcases (parse_vicinity w g).mp h with ⟨rfl, rfl⟩ | ⟨t, ht, rfl⟩
        · exact ⟨_, _, .rotor⟩
        · exact ⟨_, _, .kind (Or.inl ⟨w, ht, rfl⟩)⟩
      · obtain ⟨g0, h0, ha⟩ := (taken_snoc hne w g).mp h
        obtain ⟨c1, c2, hv⟩ := ih _ h0
        unfold VicinityGroup.append at ha
        cases hv with
        | rotor =>
          simp only at ha
          by_cases e : w = c!"CLD"
          · rw [if_pos e] at ha
            obtain rfl := (Prod.mk.inj ha).1
            subst e
            exact ⟨_, _, .kind (Or.inr ⟨rfl, rfl⟩)⟩
          · rw [if_neg e] at ha
            cases (Prod.mk.inj ha).2
        | @kind kw t hk =>
          simp only at ha
          cases hd : VicinityGroup.appendDistance { t := t, incompleteType := .EXPECT_DIST_DIR1 } w with
          | some g1 =>
            simp only [hd] at ha
            obtain ⟨d, hd', rfl⟩ := (appendDistance_iff _ _ _).mp hd
            obtain rfl := (Prod.mk.inj ha).1
            exact ⟨_, _, .distance hk hd'⟩
          | none =>
            simp only [hd] at ha
            cases h1 : VicinityGroup.appendDir1 { t := t, incompleteType := .EXPECT_DIST_DIR1 } w with
            | none =>
              simp only [h1] at ha
              cases (Prod.mk.inj ha).2
            | some g1 =>
              simp only [h1] at ha
              obtain ⟨f1, t1, hh, rfl⟩ := (appendDir1_iff _ _ _ rfl).mp h1
              obtain ⟨c, hc⟩ := (heading_iff _ _ _).mp hh
              obtain rfl := (Prod.mk.inj ha).1
              have := VicinityText.heading hk (Or.inl ⟨rfl, rfl⟩) hc
              rw [List.append_nil] at this
              exact ⟨_, _, this⟩
        | @distance kw t w0 d hk hd =>
          simp only at ha
          cases h1 : VicinityGroup.appendDir1
              { t := t, dist := d, incompleteType := .EXPECT_DIR1 } w with
          | none =>
            simp only [h1] at ha
            cases (Prod.mk.inj ha).2
          | some g1 =>
            simp only [h1] at ha
            obtain ⟨f1, t1, hh, rfl⟩ := (appendDir1_iff _ _ _ rfl).mp h1
            obtain ⟨c, hc⟩ := (heading_iff _ _ _).mp hh
            obtain rfl := (Prod.mk.inj ha).1
            exact ⟨_, _, .heading hk (Or.inr ⟨_, hd, rfl⟩) hc⟩
        | @heading kw t ds d w0 f1 t1 c hk hd hh0 =>
          simp only at ha
          by_cases e1 : w = c!"MOV"
          · rw [if_pos e1] at ha
            obtain rfl := (Prod.mk.inj ha).1
            subst e1
            have := VicinityText.moving hk hd hh0 .none
            rw [List.append_nil] at this
            exact ⟨_, _, this⟩
          rw [if_neg e1] at ha
          by_cases e2 : w = c!"AND"
          · rw [if_pos e2] at ha
            obtain rfl := (Prod.mk.inj ha).1
            subst e2
            exact ⟨_, _, .headingAnd hk hd hh0⟩
          rw [if_neg e2] at ha
          cases h1 : VicinityGroup.appendDir2 { t := t, dist := d, dir1from := f1, dir1to := t1, incompleteType := .EXPECT_DIR2_MOV } w with
          | none =>
            simp only [h1] at ha
            cases (Prod.mk.inj ha).2
          | some g1 =>
            simp only [h1] at ha
            obtain ⟨f2, t2, hh, rfl⟩ := (appendDir2_iff _ _ _ rfl).mp h1
            obtain ⟨c, hc⟩ := (heading_iff _ _ _).mp hh
            obtain rfl := (Prod.mk.inj ha).1
            exact ⟨_, _, .headings hk hd hh0 (.bare hc) (by simp)⟩
        | @headingAnd kw t ds d w0 f1 t1 c hk hd hh0 =>
          simp only at ha
          cases h1 : VicinityGroup.appendDir2 { t := t, dist := d, dir1from := f1, dir1to := t1, incompleteType := .EXPECT_DIR2 } w with
          | none =>
            simp only [h1] at ha
            cases (Prod.mk.inj ha).2
          | some g1 =>
            simp only [h1] at ha
            obtain ⟨f2, t2, hh, rfl⟩ := (appendDir2_iff _ _ _ rfl).mp h1
            obtain ⟨c, hc⟩ := (heading_iff _ _ _).mp hh
            obtain rfl := (Prod.mk.inj ha).1
            have := VicinityText.headings hk hd hh0 (.and hc) (by simp)
            have e : kw ++ ds ++ [w0] ++ [c!"AND"] ++ [w] = kw ++ ds ++ [w0] ++ [c!"AND", w] := by simp
            rw [e]
            exact ⟨_, _, this⟩
        | @headings kw t ds d w0 f1 t1 c hs f2 t2 c' hk hd hh0 hs' hne' =>
          simp only at ha
          by_cases e1 : w = c!"MOV"
          · rw [if_pos e1] at ha
            obtain rfl := (Prod.mk.inj ha).1
            subst e1
            exact ⟨_, _, .moving hk hd hh0 hs'⟩
          · rw [if_neg e1] at ha
            cases (Prod.mk.inj ha).2
        | @moving kw t ds d w0 f1 t1 c hs f2 t2 c' hk hd hh0 hs' =>
          simp only at ha
          cases hm : fromCardinalString w false true with
          | none =>
            simp only [hm] at ha
            cases (Prod.mk.inj ha).2
          | some md =>
            simp only [hm] at ha
            obtain rfl := (Prod.mk.inj ha).1
            exact ⟨_, _, .moved hk hd hh0 hs' ((movement_iff _ _).mp hm)⟩
        | moved hk hd hh0 hs' hm =>
          simp only at ha
          cases (Prod.mk.inj ha).2
  · rintro ⟨c1, c2, h⟩
    have kind : ∀ {kw t}, KindWords kw t → kw ≠ [] ∧
        taken (VicinityGroup.parse · .RMK) VicinityGroup.append kw =
          some { t := t, incompleteType := .EXPECT_DIST_DIR1 } := by
      rintro kw t (⟨w, hw, rfl⟩ | ⟨rfl, rfl⟩)
      · exact ⟨by simp, by rw [taken_one]; exact (parse_vicinity _ _).mpr (Or.inr ⟨t, hw, rfl⟩)⟩
      · exact ⟨by simp, by decide +kernel⟩
    have distance : ∀ {kw t w d}, KindWords kw t → DistanceWord w d →
        taken (VicinityGroup.parse · .RMK) VicinityGroup.append (kw ++ [w]) =
          some { t := t, dist := d, incompleteType := .EXPECT_DIR1 } := by
      intro kw t w d hk hd
      refine (taken_snoc (kind hk).1 _ _).mpr ⟨_, (kind hk).2, ?_⟩
      unfold VicinityGroup.append
      simp only
      rw [(appendDistance_iff _ _ _).mpr ⟨d, hd, rfl⟩]
      rfl
    have heading : ∀ {kw t ds d w f1 t1 c}, KindWords kw t → DistanceWords ds d →
        HeadingText w f1 t1 c →
        taken (VicinityGroup.parse · .RMK) VicinityGroup.append (kw ++ ds ++ [w]) =
          some { t := t, dist := d, dir1from := f1, dir1to := t1,
                 incompleteType := .EXPECT_DIR2_MOV } := by
      intro kw t ds d w f1 t1 c hk hd hh
      have hh' := (heading_iff _ _ _).mpr ⟨c, hh⟩
      rcases hd with ⟨rfl, rfl⟩ | ⟨dw, hdw, rfl⟩
      · rw [List.append_nil]
        refine (taken_snoc (kind hk).1 _ _).mpr ⟨_, (kind hk).2, ?_⟩
        unfold VicinityGroup.append
        simp only
        have hnd : VicinityGroup.appendDistance
            { t := t, incompleteType := .EXPECT_DIST_DIR1 } w = none := by
          cases hd : VicinityGroup.appendDistance { t := t, incompleteType := .EXPECT_DIST_DIR1 } w with
          | none => rfl
          | some g1 =>
            obtain ⟨d, hd', -⟩ := (appendDistance_iff _ _ _).mp hd
            rw [distance_not_heading hd'] at hh'
            cases hh'
        rw [hnd]
        simp only
        rw [(appendDir1_iff _ _ _ rfl).mpr ⟨f1, t1, hh', rfl⟩]
        rfl
      · refine (taken_snoc (by simp) _ _).mpr ⟨_, distance hk hdw, ?_⟩
        unfold VicinityGroup.append
        simp only
        rw [(appendDir1_iff _ _ _ rfl).mpr ⟨f1, t1, hh', rfl⟩]
        rfl
    have headingAnd : ∀ {kw t ds d w f1 t1 c}, KindWords kw t → DistanceWords ds d →
        HeadingText w f1 t1 c →
        taken (VicinityGroup.parse · .RMK) VicinityGroup.append (kw ++ ds ++ [w] ++ [c!"AND"]) =
          some { t := t, dist := d, dir1from := f1, dir1to := t1, incompleteType := .EXPECT_DIR2 } := by
      intro kw t ds d w f1 t1 c hk hd hh
      exact (taken_snoc (by simp) _ _).mpr ⟨_, heading hk hd hh, rfl⟩
    have headings : ∀ {kw t ds d w f1 t1 c hs f2 t2 c'}, KindWords kw t → DistanceWords ds d →
        HeadingText w f1 t1 c → SecondHeading hs f2 t2 c' → hs ≠ [] →
        taken (VicinityGroup.parse · .RMK) VicinityGroup.append (kw ++ ds ++ [w] ++ hs) =
          some { t := t, dist := d, dir1from := f1, dir1to := t1, dir2from := f2, dir2to := t2,
                 incompleteType := .EXPECT_MOV } := by
      intro kw t ds d w f1 t1 c hs f2 t2 c' hk hd hh hs' hne
      cases hs' with
      | none => exact absurd rfl hne
      | @bare w2 _ _ _ h2 =>
        have hh' := (heading_iff _ _ _).mpr ⟨_, h2⟩
        refine (taken_snoc (by simp) _ _).mpr ⟨_, heading hk hd hh, ?_⟩
        unfold VicinityGroup.append
        simp only
        have n1 : w2 ≠ c!"MOV" := by
          rintro rfl; rw [heading_keyword (by simp)] at hh'; cases hh'
        have n2 : w2 ≠ c!"AND" := by
          rintro rfl; rw [heading_keyword (by simp)] at hh'; cases hh'
        rw [if_neg n1, if_neg n2, (appendDir2_iff _ _ _ rfl).mpr ⟨f2, t2, hh', rfl⟩]
        rfl
      | @and w2 _ _ _ h2 =>
        have hh' := (heading_iff _ _ _).mpr ⟨_, h2⟩
        have e : kw ++ ds ++ [w] ++ [c!"AND", w2] = kw ++ ds ++ [w] ++ [c!"AND"] ++ [w2] := by simp
        rw [e]
        refine (taken_snoc (by simp) _ _).mpr ⟨_, headingAnd hk hd hh, ?_⟩
        unfold VicinityGroup.append
        simp only
        rw [(appendDir2_iff _ _ _ rfl).mpr ⟨f2, t2, hh', rfl⟩]
        rfl
    have moving : ∀ {kw t ds d w f1 t1 c hs f2 t2 c'}, KindWords kw t → DistanceWords ds d →
        HeadingText w f1 t1 c → SecondHeading hs f2 t2 c' →
        taken (VicinityGroup.parse · .RMK) VicinityGroup.append
          (kw ++ ds ++ [w] ++ hs ++ [c!"MOV"]) =
          some { t := t, dist := d, dir1from := f1, dir1to := t1, dir2from := f2, dir2to := t2,
                 incompleteType := .EXPECT_MOVDIR } := by
      intro kw t ds d w f1 t1 c hs f2 t2 c' hk hd hh hs'
      by_cases hne : hs = []
      · subst hne
        cases hs' with
        | none =>
          rw [List.append_nil]
          exact (taken_snoc (by simp) _ _).mpr ⟨_, heading hk hd hh, rfl⟩
      · exact (taken_snoc (by simp) _ _).mpr ⟨_, headings hk hd hh hs' hne, rfl⟩
    cases h with
    | rotor => decide +kernel
    | kind hk => exact (kind hk).2
    | distance hk hd => exact distance hk hd
    | heading hk hd hh => exact heading hk hd hh
    | headingAnd hk hd hh => exact headingAnd hk hd hh
    | headings hk hd hh hs hne => exact headings hk hd hh hs hne
    | moving hk hd hh hs => exact moving hk hd hh hs
    | moved hk hd hh hs hm =>
      refine (taken_snoc (by simp) _ _).mpr ⟨_, moving hk hd hh hs, ?_⟩
      unfold VicinityGroup.append
      simp only
      rw [(movement_iff _ _).mpr hm]
      rfl

/-- C61. Phenomena in the vicinity are recognised in remarks only. -/
theorem C61_remark (s : Str) (p : ReportPart) (h : p ≠ .RMK) : VicinityGroup.parse s p = none := by
  simp [VicinityGroup.parse, h]

/-- C61. What happens to a group when a text does not belong to it. A name without distance and
direction, AND without a second direction and MOV without a direction make the group invalid; any
other group becomes valid. The values do not change in either case. -/
theorem C61_rejected (ws : List Str) (g : VicinityGroup) (c1 c2 : List Cardinal)
    (hv : VicinityText ws g c1 c2) (s : Str) (h : (g.append s).2 ≠ .APPENDED) :
    ((g.append s).2 = .GROUP_INVALIDATED ∧ (g.append s).1 = g ∧ g.isValid = false ∧
      ((∃ t, KindWords ws t) ∨ ws = [c!"ROTOR"] ∨ ∃ ws', ws' ≠ [] ∧ (ws = ws' ++ [c!"AND"] ∨ ws = ws' ++ [c!"MOV"]))) ∨
    ((g.append s).2 = .NOT_APPENDED ∧ (g.append s).1 = { g with incompleteType := .NONE } ∧
      (g.append s).1.isValid = true ∧ (g.dist.isReported = true ∨ g.dir1from.isSome = true)) := by
  have dist : ∀ {w d}, DistanceWord w d → d.isReported = true := by
    rintro w d (⟨-, rfl⟩ | ⟨-, rfl⟩ | ⟨k, n, -, -, -, rfl⟩) <;> rfl
  cases hv with
  | rotor =>
    left
    unfold VicinityGroup.append at *
    simp only at *
    split
    · rename_i e
      rw [if_pos e] at h
      exact absurd rfl h
    · exact ⟨rfl, rfl, rfl, Or.inr (Or.inl trivial)⟩
  | kind hk =>
    left
    unfold VicinityGroup.append at *
    simp only at *
    repeat' split
    · rename_i e
      rw [e] at h
      exact absurd rfl h
    · rename_i e1 _ _ e2
      simp only [e1, e2] at h
      exact absurd rfl h
    · exact ⟨rfl, rfl, rfl, Or.inl ⟨_, hk⟩⟩
  | distance hk hd =>
    right
    unfold VicinityGroup.append at *
    simp only at *
    split
    · rename_i e
      rw [e] at h
      exact absurd rfl h
    · exact ⟨rfl, rfl, rfl, Or.inl (dist hd)⟩
  | heading hk hd hh =>
    right
    obtain ⟨d, rfl⟩ := heading_from hh
    unfold VicinityGroup.append at *
    simp only at *
    repeat' split
    · rename_i e
      rw [if_pos e] at h
      exact absurd rfl h
    · rename_i e1 e2
      rw [if_neg e1, if_pos e2] at h
      exact absurd rfl h
    · rename_i e1 e2 _ _ e3
      rw [if_neg e1, if_neg e2, e3] at h
      exact absurd rfl h
    · exact ⟨rfl, rfl, rfl, Or.inr rfl⟩
  | headingAnd hk hd hh =>
    left
    unfold VicinityGroup.append at *
    simp only at *
    split
    · rename_i e
      rw [e] at h
      exact absurd rfl h
    · exact ⟨rfl, rfl, rfl, Or.inr (Or.inr ⟨_, by simp, Or.inl rfl⟩)⟩
  | headings hk hd hh hs hne =>
    right
    obtain ⟨d, rfl⟩ := heading_from hh
    unfold VicinityGroup.append at *
    simp only at *
    split
    · rename_i e
      rw [if_pos e] at h
      exact absurd rfl h
    · exact ⟨rfl, rfl, rfl, Or.inr rfl⟩
  | moving hk hd hh hs =>
    left
    unfold VicinityGroup.append at *
    simp only at *
    split
    · rename_i e
      rw [e] at h
      exact absurd rfl h
    · exact ⟨rfl, rfl, rfl, Or.inr (Or.inr ⟨_, by simp, Or.inr rfl⟩)⟩
  | moved hk hd hh hs hm =>
    right
    obtain ⟨d, rfl⟩ := heading_from hh
    exact ⟨rfl, rfl, rfl, Or.inr rfl⟩

/-- C61. The directions listed are those of the directions and sectors written, without
repetitions, the first one first; the list is always obtained. -/
theorem C61_directions (ws : List Str) (g : VicinityGroup) (c1 c2 : List Cardinal)
    (h : VicinityText ws g c1 c2) :
    ∃ v, (∀ fuel, 8 ≤ fuel → g.directions fuel = some v) ∧ (v.map (·.cardinal)).Nodup ∧
      c1 <+: v.map (·.cardinal) ∧ ∀ c, c ∈ v.map (·.cardinal) ↔ c ∈ c1 ∨ c ∈ c2 := by
  have second : ∀ {hs f t c}, SecondHeading hs f t c →
      (f = none ∧ t = none ∧ c = []) ∨ ∃ s, HeadingText s f t c := by
    intro hs f t c h
    cases h with
    | none => exact Or.inl ⟨rfl, rfl, rfl⟩
    | bare h => exact Or.inr ⟨_, h⟩
    | and h => exact Or.inr ⟨_, h⟩
  cases h with
  | rotor => exact two_headings (Or.inl ⟨rfl, rfl, rfl⟩) (Or.inl ⟨rfl, rfl, rfl⟩)
  | kind => exact two_headings (Or.inl ⟨rfl, rfl, rfl⟩) (Or.inl ⟨rfl, rfl, rfl⟩)
  | distance => exact two_headings (Or.inl ⟨rfl, rfl, rfl⟩) (Or.inl ⟨rfl, rfl, rfl⟩)
  | heading _ _ h => exact two_headings (Or.inr ⟨_, h⟩) (Or.inl ⟨rfl, rfl, rfl⟩)
  | headingAnd _ _ h => exact two_headings (Or.inr ⟨_, h⟩) (Or.inl ⟨rfl, rfl, rfl⟩)
  | headings _ _ h h2 _ => exact two_headings (Or.inr ⟨_, h⟩) (second h2)
  | moving _ _ h h2 => exact two_headings (Or.inr ⟨_, h⟩) (second h2)
  | moved _ _ h h2 _ => exact two_headings (Or.inr ⟨_, h⟩) (second h2)

example : taken (VicinityGroup.parse · .RMK) VicinityGroup.append
      [c!"CB", c!"DSNT", c!"N-E", c!"AND", c!"SW", c!"MOV", c!"NE"] =
    some { t := .CUMULONIMBUS, dist := { distModifier := .DISTANT },
           dir1from := some ⟨360, .VALUE_CARDINAL⟩, dir1to := some ⟨90, .VALUE_CARDINAL⟩,
           dir2from := some ⟨225, .VALUE_CARDINAL⟩, movDir := ⟨45, .VALUE_CARDINAL⟩ } := by
  decide +kernel

example : VicinityText ([c!"TS"] ++ [] ++ [c!"OHD"]) { t := .THUNDERSTORM, dir1from := some ⟨0, .OVERHEAD⟩, incompleteType := .EXPECT_DIR2_MOV } [.OHD] [] :=
  .heading (Or.inl ⟨_, by simp [vicinityWords], rfl⟩) (Or.inl ⟨rfl, rfl⟩) .overhead

end Metaf.Props

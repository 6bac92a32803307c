import Verif.Props.RemarkTable
import Verif.Props.Division

/-!
C72: what becomes of a remark which is not continued, and which words are two remarks.
-/

set_option linter.unusedSectionVars false

namespace Metaf.Props

open Metaf Metaf.Spec

variable [FloatIeee]

/-! ### Specification -/

/-- Beginnings of remarks which are of no use without a continuation. -/
def halfPhrases : List (List Str) :=
  [[c!"WND"], [c!"PK"], [c!"PK", c!"WND"], [c!"WX"], [c!"T"], [c!"TD"], [c!"PRES"], [c!"ICG"], [c!"PCPN"],
   [c!"TS/LTNG"], [c!"TS/LTNG", c!"TEMPO"], [c!"OCNL"], [c!"FRQ"], [c!"CONS"], [c!"ROTOR"],
   [c!"ROTOR", c!"CLD"], [c!"DENSITY"], [c!"DENSITY", c!"ALT"], [c!"GR"]]

/-- The words of a remark are of no use if the word `next` does not continue it. -/
inductive Lacking (next : Str) : List Str → Prop
  | phrase {ws} : ws ∈ halfPhrases → Lacking next ws
  | visibility {ws} : NeedsMore ws → Lacking next ws
  | visibilityRange {ws} : RangeForObserver ws next → Lacking next ws
  | cloud {ws} : CloudNeedsMore ws → Lacking next ws
  | hail {n} : 1 ≤ n → n ≤ 9 → Lacking next [c!"GR", decimal 1 n]
  | phenomenon {w t} : (w, t) ∈ vicinityWords → Lacking next [w]
  | secondHeading {kw t ds d w f1 t1 c} : KindWords kw t → DistanceWords ds d → HeadingText w f1 t1 c →
      Lacking next (kw ++ ds ++ [w] ++ [c!"AND"])
  | movement {kw t ds d w f1 t1 c hs f2 t2 c'} : KindWords kw t → DistanceWords ds d → HeadingText w f1 t1 c →
      SecondHeading hs f2 t2 c' → Lacking next (kw ++ ds ++ [w] ++ hs ++ [c!"MOV"])

/-- A group to which nothing more is added. -/
def settled : Group → Group
  | .visibility g => .visibility { g with incompleteText := .NONE }
  | .cloud g => .cloud { g with incompleteText := .NONE }
  | .vicinity g => .vicinity { g with incompleteType := .NONE }
  | g => g

/-! ### Words which are two remarks -/

theorem dashed_mem {c : Char} : ∀ {x : Str} {l : List Str}, c ∈ dashed x l → c ∈ x ∨ c = '-' ∨ ∃ y ∈ l, c ∈ y
  | x, [], h => Or.inl h
  | x, y :: l, h => by
    simp only [dashed, List.mem_append, List.mem_cons] at h
    rcases h with h | h | h
    · exact Or.inl h
    · exact Or.inr (Or.inl h)
    · rcases dashed_mem h with h | h | ⟨z, hz, h⟩
      · exact Or.inr (Or.inr ⟨y, by simp, h⟩)
      · exact Or.inr (Or.inl h)
      · exact Or.inr (Or.inr ⟨z, by simp [hz], h⟩)

theorem octant_nodigit {w : Str} {n : Nat} (h : (w, n) ∈ octantNames) : ∀ c ∈ w, isDigit c = false := by
  simp only [octantNames, List.mem_cons, Prod.mk.injEq, List.not_mem_nil, or_false] at h
  rcases h with h | h | h | h | h | h | h | h <;> obtain ⟨rfl, -⟩ := h <;> decide

theorem heading_nodigit {w : Str} {f t : Option Direction} {c : List Cardinal} (h : HeadingText w f t c) :
    ∀ x ∈ w, isDigit x = false := by
  cases h with
  | octant h => exact octant_nodigit h
  | ndv => decide
  | overhead => decide
  | allQuadrants => decide
  | sector h1 h2 h3 =>
    intro x hx
    rcases dashed_mem hx with hx | rfl | ⟨y, hy, hx⟩
    · exact octant_nodigit h1 x hx
    · decide
    · rcases List.mem_append.mp hy with hy | hy
      · obtain ⟨n, hn⟩ := h3 y hy
        exact octant_nodigit hn x hx
      · have e := List.mem_singleton.mp hy
        rw [e] at hx
        exact octant_nodigit h2 x hx

/-- The amount of an obscuration is neither a distance nor a direction. -/
theorem amount_apart {w : Str} {a : Metaf.Amount} {n : Nat} (h : AmountText w a (some n)) :
    (∀ d, ¬ DistanceWord w d) ∧ ∀ f t c, ¬ HeadingText w f t c := by
  obtain ⟨t, ht, hn, rfl⟩ := h
  have hn : n < 1000 := hn n rfl
  have hd : ∃ x ∈ decimal 3 n, isDigit x = true := by
    have hl : (decimal 3 n).length = 3 := decimal_length 3 n
    cases hx : decimal 3 n with
    | nil => rw [hx] at hl; cases hl
    | cons x l => exact ⟨x, by simp, decimal_digits 3 n x (by rw [hx]; simp)⟩
  obtain ⟨x, hx, hxd⟩ := hd
  have h0 : ∃ b l, t = b :: l ∧ isDigit b = false := by
    simp only [List.mem_cons, Prod.mk.injEq, List.not_mem_nil, or_false] at ht
    rcases ht with ⟨rfl, -⟩ | ⟨rfl, -⟩ | ⟨rfl, -⟩ | ⟨rfl, -⟩ <;> exact ⟨_, _, rfl, by decide⟩
  obtain ⟨b, l, rfl, hb⟩ := h0
  have hm : x ∈ b :: l ++ (Option.map (decimal 3) (some n)).getD [] := by simp [hx]
  constructor
  · rintro d (⟨e, -⟩ | ⟨e, -⟩ | ⟨k, m, hk, hm', e, -⟩)
    · rw [e] at hm
      have : ∀ y ∈ c!"DSNT", isDigit y = false := by decide
      rw [this x hm] at hxd; cases hxd
    · rw [e] at hm
      have : ∀ y ∈ c!"VC", isDigit y = false := by decide
      rw [this x hm] at hxd; cases hxd
    · have hl : (decimal k m).length = k := decimal_length k m
      cases hy : decimal k m with
      | nil => rw [hy] at hl; rcases hk with rfl | rfl <;> cases hl
      | cons y l' =>
        rw [hy] at e
        have := (List.cons.inj e).1
        have := decimal_digits k m y (by rw [hy]; simp)
        simp_all
  · intro f t c h
    rw [heading_nodigit h x hm] at hxd
    cases hxd

theorem obscuration_word {s : Str} {g : Group} {md : ReportMetadata} (hs : s ∈ ambiguous)
    (h : recognise 6 s .RMK md = .ok (some g)) : ∃ k, (s, k) ∈ remarkObscurations ∧
      g = .cloud { tp := .OBSCURATION, incompleteText := .OBSCURATION, cldTp := { tp := k } } := by
  simp only [ambiguous, List.mem_cons, List.not_mem_nil, or_false] at hs
  rcases hs with rfl | rfl | rfl | rfl | rfl <;> cases h <;> exact ⟨_, by simp [remarkObscurations], rfl⟩

theorem phenomenon_word {s : Str} {g : Group} {md : ReportMetadata} (hs : s ∈ ambiguous)
    (h : recognise 19 s .RMK md = .ok (some g)) : ∃ t, (s, t) ∈ vicinityWords ∧
      g = .vicinity { t := t, incompleteType := .EXPECT_DIST_DIR1 } := by
  simp only [ambiguous, List.mem_cons, List.not_mem_nil, or_false] at hs
  rcases hs with rfl | rfl | rfl | rfl | rfl <;> cases h <;> exact ⟨_, by simp [vicinityWords], rfl⟩

/-- No word continues both an obscuration and a phenomenon in the vicinity. -/
theorem ambiguous_apart {s w : Str} {md : ReportMetadata} {g g' x y : Group} (hs : s ∈ ambiguous)
    (h : recognise 6 s .RMK md = .ok (some g)) (h' : recognise 19 s .RMK md = .ok (some g'))
    (ha : g.append w .RMK md = .ok (x, .APPENDED)) (ha' : g'.append w .RMK md = .ok (y, .APPENDED)) : False := by
  obtain ⟨k, hk, rfl⟩ := obscuration_word hs h
  obtain ⟨t, ht, rfl⟩ := phenomenon_word hs h'
  have h1 : ∃ a n, AmountText w a (some n) := by
    obtain ⟨z, rfl, hz⟩ := app_inj (mk := .cloud) ha
    have := (C72_clouds [s, w] z).mp ((taken_snoc (ws := [s]) (by simp) w z).mpr
      ⟨_, (C72_clouds [s] _).mpr (.obscuration hk), hz⟩)
    generalize hv : [s, w] = v at this
    cases this with
    | obscurationAmount _ h => cases hv; exact ⟨_, _, h⟩
    | amountV h =>
      cases hv
      obtain ⟨t, hq, -, rfl⟩ := h
      simp only [List.mem_cons, Prod.mk.injEq, List.not_mem_nil, or_false] at hq
      exfalso
      rcases hq with ⟨rfl, -⟩ | ⟨rfl, -⟩ | ⟨rfl, -⟩ | ⟨rfl, -⟩ <;> simp [ambiguous] at hs
    | _ => cases hv <;> exact absurd hs (by decide)
  have h2 : (∃ d, DistanceWord w d) ∨ ∃ f t c, HeadingText w f t c := by
    obtain ⟨z, rfl, hz⟩ := app_inj (mk := .vicinity) ha'
    simp only [VicinityGroup.append] at hz
    split at hz
    · rename_i g1 hg1
      obtain ⟨d, hd, -⟩ := (appendDistance_iff _ _ _).mp hg1
      exact Or.inl ⟨d, hd⟩
    · split at hz
      · rename_i g1 hg1
        obtain ⟨f, t, hd, -⟩ := (appendDir1_iff _ _ _ rfl).mp hg1
        obtain ⟨c, hc⟩ := (heading_iff _ f t).mp hd
        exact Or.inr ⟨f, t, c, hc⟩
      · cases hz
  obtain ⟨a, n, h1⟩ := h1
  rcases h2 with ⟨d, h2⟩ | ⟨f, t, c, h2⟩
  · exact (amount_apart h1).1 d h2
  · exact (amount_apart h1).2 f t c h2

theorem recognised_once {s : Str} {md : ReportMetadata} {i j : Nat} {g g' : Group}
    (h : recognise i s .RMK md = .ok (some g)) (h' : recognise j s .RMK md = .ok (some g')) :
    g = g' ∨ s ∈ ambiguous := by
  rcases C66_one_kind _ _ _ _ _ _ _ _ h h' with rfl | ⟨-, hs, -⟩
  · rw [h] at h'
    exact Or.inl (Option.some.inj (Except.ok.inj h'))
  · exact Or.inr hs

theorem reads_single {p : ReportPart} {md : ReportMetadata} {w : Str} {g : Group} (h : Reads p md [w] g) :
    recognise g.index w p md = .ok (some g) := by
  generalize hv : [w] = v at h
  cases h with
  | first hr =>
    cases hv
    rw [GroupParser.recognise_index hr]
    exact hr
  | more hr ha =>
    have := congrArg List.length hv
    have hn := hr.ne_nil
    simp at this
    exact absurd this hn

/-- The same words are not two different remarks, unless they are one of the five ambiguous words. -/
theorem remark_unique {md : ReportMetadata} {ws : List Str} {g g' : Group}
    (h : Reads .RMK md ws g) (h' : Reads .RMK md ws g') : g = g' ∨ ∃ w ∈ ambiguous, ws = [w] := by
  induction h generalizing g' with
  | @first w i g hr =>
    rcases recognised_once hr (reads_single h') with e | e
    · exact Or.inl e
    · exact Or.inr ⟨w, e, rfl⟩
  | @more ws x y w hr ha ih =>
    left
    obtain ⟨x', hr', ha'⟩ := reads_snoc h' hr.ne_nil
    rcases ih hr' with rfl | ⟨v, hv, rfl⟩
    · rw [ha] at ha'
      exact (Prod.mk.inj (Except.ok.inj ha')).1
    · have h1 := reads_single hr
      have h2 := reads_single hr'
      rcases C66_one_kind _ _ _ _ _ _ _ _ h1 h2 with e | ⟨-, hs, ⟨e1, e2⟩ | ⟨e1, e2⟩⟩
      · rw [e, h2] at h1
        obtain rfl := Option.some.inj (Except.ok.inj h1)
        rw [ha] at ha'
        exact (Prod.mk.inj (Except.ok.inj ha')).1
      · rw [e1] at h1
        rw [e2] at h2
        exact (ambiguous_apart hv h1 h2 ha ha').elim
      · rw [e1] at h1
        rw [e2] at h2
        exact (ambiguous_apart hv h2 h1 ha' ha).elim

/-! ### Words which do not continue a remark -/

theorem wind_remark {now : Option Nat} {ws : List Str} {x : WindGroup} (h : WindSequence .RMK now ws x) :
    ws ≠ [c!"WS"] ∧ ws ≠ [c!"WS", c!"ALL"] := by
  generalize hp : ReportPart.RMK = p at h
  cases h with
  | wind h => subst hp; rcases h with h | h <;> cases h
  | windAndSector h => subst hp; rcases h with h | h <;> cases h
  | sector h => subst hp; rcases h with h | h <;> cases h
  | shearConditions h => subst hp; cases h
  | shear h => subst hp; cases h
  | shearAll h => subst hp; cases h
  | shearAllRunways h => subst hp; cases h
  | shearRunway h => subst hp; cases h
  | _ => simp

/-- What a group does with a word that it does not take. -/
theorem remark_left {md : ReportMetadata} {ws : List Str} {g g' : Group} {s : Str} {r : AppendResult}
    (hR : Reads .RMK md ws g) (ha : g.append s .RMK md = .ok (g', r)) (hr : r ≠ .APPENDED) :
    (r = .GROUP_INVALIDATED ∧ Lacking s ws ∧ g'.index = g.index) ∨ (r = .NOT_APPENDED ∧ g' = settled g) := by
  have hne := hR.ne_nil
  have hidx := Parser.append_index ha
  have closed : g.append s .RMK md = .ok (g, .NOT_APPENDED) → settled g = g →
      r = .NOT_APPENDED ∧ g' = settled g := by
    intro e hs
    rw [e] at ha
    obtain ⟨h1, h2⟩ := Prod.mk.inj (Except.ok.inj ha)
    exact ⟨h2.symm, by rw [← h1, hs]⟩
  cases reads_remark hR with
  | keyword => exact Or.inr (closed rfl rfl)
  | fixed h =>
    refine Or.inr (closed (fixed_closed h _ _ _) ?_)
    simp only [fixedWords, List.mem_cons, Prod.mk.injEq, List.not_mem_nil, or_false] at h
    rcases h with ⟨-, rfl⟩ | ⟨-, rfl⟩ | ⟨-, rfl⟩ | ⟨-, rfl⟩ | ⟨-, rfl⟩ | ⟨-, rfl⟩ | ⟨-, rfl⟩ <;> rfl
  | missing h =>
    rw [missing_append h] at ha
    split at ha
    · cases ha; exact absurd rfl hr
    · cases ha
      refine Or.inl ⟨rfl, .phrase ?_, rfl⟩
      simp only [missingWords, List.mem_cons, Prod.mk.injEq, List.not_mem_nil, or_false] at h
      rcases h with ⟨rfl, -⟩ | ⟨rfl, -⟩ | ⟨rfl, -⟩ | ⟨rfl, -⟩ | ⟨rfl, -⟩ | ⟨rfl, -⟩ <;> simp [halfPhrases]
  | missingSaid h =>
    refine Or.inr (closed (missing_closed h _ _ _) ?_)
    simp only [missingWords, List.mem_cons, Prod.mk.injEq, List.not_mem_nil, or_false] at h
    rcases h with ⟨-, -, rfl⟩ | ⟨-, -, rfl⟩ | ⟨-, -, rfl⟩ | ⟨-, -, rfl⟩ | ⟨-, -, rfl⟩ | ⟨-, -, rfl⟩ <;> rfl
  | @wind _ x h =>
    simp only [Group.append, Except.ok.injEq, Prod.mk.injEq] at ha
    have ht := (C63_history .RMK md ws x).mpr h
    rcases C63_rejected .RMK md ws x s ht (fun y hy => by
      obtain ⟨x', hx', e⟩ := (taken_snoc hne s y).mp ((C63_history .RMK md _ _).mpr hy)
      rw [ht] at hx'
      obtain rfl := Option.some.inj hx'
      rw [e] at ha
      exact hr ha.2.symm) with ⟨e, -, hm⟩ | ⟨e, -⟩
    · refine Or.inl ⟨ha.2.symm.trans e, .phrase ?_, hidx⟩
      simp only [List.mem_cons, List.not_mem_nil, or_false] at hm
      rcases hm with rfl | rfl | rfl | rfl | rfl
      · exact absurd rfl (wind_remark h).1
      · exact absurd rfl (wind_remark h).2
      · simp [halfPhrases]
      · simp [halfPhrases]
      · simp [halfPhrases]
    · rw [e] at ha
      exact Or.inr ⟨ha.2.symm, ha.1.symm⟩
  | @visibility _ x h =>
    simp only [Group.append, Except.ok.injEq, Prod.mk.injEq] at ha
    have ht := (C64_history ws x).mpr h
    rcases C64_rejected ws x s ht (fun y hy => by
      obtain ⟨x', hx', e⟩ := (taken_snoc hne s y).mp ((C64_history _ _).mpr hy)
      rw [ht] at hx'
      obtain rfl := Option.some.inj hx'
      rw [e] at ha
      exact hr ha.2.symm) with ⟨e, hm | hm⟩ | ⟨e, -⟩
    · exact Or.inl ⟨ha.2.symm.trans e, .visibility hm, hidx⟩
    · exact Or.inl ⟨ha.2.symm.trans e, .visibilityRange hm, hidx⟩
    · rw [e] at ha
      exact Or.inr ⟨ha.2.symm, ha.1.symm⟩
  | @cloud _ x h =>
    simp only [Group.append, Except.ok.injEq, Prod.mk.injEq] at ha
    have ht := (C72_clouds ws x).mpr h
    rcases C72_clouds_rejected ws x s h (fun y hy => by
      obtain ⟨x', hx', e⟩ := (taken_snoc hne s y).mp ((C72_clouds _ _).mpr hy)
      rw [ht] at hx'
      obtain rfl := Option.some.inj hx'
      rw [e] at ha
      exact hr ha.2.symm) with ⟨e, hm⟩ | ⟨e, -⟩
    · rw [e] at ha
      exact Or.inl ⟨ha.2.symm, .cloud hm, hidx⟩
    · rw [e] at ha
      exact Or.inr ⟨ha.2.symm, ha.1.symm⟩
  | events => exact Or.inr (closed rfl rfl)
  | lightningSensor =>
    simp only [Group.append, WeatherGroup.append, Except.ok.injEq, Prod.mk.injEq] at ha
    split at ha
    · exact Or.inl ⟨ha.2.symm, .phrase (by simp [halfPhrases]), hidx⟩
    · exact absurd ha.2.symm hr
  | lightningSensorTemporarily =>
    simp only [Group.append, WeatherGroup.append, Except.ok.injEq, Prod.mk.injEq] at ha
    split at ha
    · exact Or.inl ⟨ha.2.symm, .phrase (by simp [halfPhrases]), hidx⟩
    · exact absurd ha.2.symm hr
  | lightningSensorUnavailable => exact Or.inr (closed rfl rfl)
  | temperature => exact Or.inr (closed rfl rfl)
  | pressure => exact Or.inr (closed rfl rfl)
  | seaLevelPressure => exact Or.inr (closed rfl rfl)
  | stationPressure => exact Or.inr (closed rfl rfl)
  | @sixHourly _ x n h =>
    refine Or.inr (closed ?_ rfl)
    simp only [Group.append, six_append] at ha ⊢
    obtain ⟨h1, h2⟩ := Prod.mk.inj (Except.ok.inj ha)
    repeat' split at h2
    all_goals first
      | (exact absurd h2.symm hr)
      | simp_all
  | daily => exact Or.inr (closed rfl rfl)
  | precipitation h => exact Or.inr (closed (by simp only [Group.append, amount_closed h]) rfl)
  | snowIncreasing =>
    refine Or.inr (closed ?_ rfl)
    simp only [Group.append, Except.ok.injEq, Prod.mk.injEq] at ha ⊢
    rcases snincr_append s with ⟨p, q, hpq, e⟩ | e
    · rw [e] at ha; exact absurd ha.2.symm hr
    · rw [e]; exact ⟨rfl, rfl⟩
  | snowIncrease h => exact Or.inr (closed (by simp only [Group.append, snincr_closed h]) rfl)
  | tendency => exact Or.inr (closed rfl rfl)
  | @cloudTypes _ cs h0 h8 hf =>
    refine Or.inr (closed ?_ rfl)
    simp only [Group.append] at ha ⊢
    have : CloudTypesGroup.append ⟨cs⟩ s = .ok (⟨cs⟩, .NOT_APPENDED) := by
      unfold CloudTypesGroup.append at ha ⊢
      split
      · rfl
      · rename_i hl
        rw [if_neg hl] at ha
        split
        · rename_i hc
          rw [hc] at ha
          cases ha
        · rename_i last hc
          rw [hc] at ha
          dsimp only at ha ⊢
          split
          · rfl
          · rename_i h1
            rw [if_neg h1] at ha
            split
            · rfl
            · rename_i ct hct
              rw [hct] at ha
              dsimp only at ha
              split
              · rfl
              · rename_i h2
                rw [if_neg h2] at ha
                cases ha
                exact absurd rfl hr
    rw [this]
  | cloudOktas h0 hs hf => exact Or.inr (closed (by simp only [Group.append, oktas_closed h0 hf]) rfl)
  | cloudCodes => exact Or.inr (closed rfl rfl)
  | @lightning _ x c1 c2 h =>
    simp only [Group.append, Except.ok.injEq, Prod.mk.injEq] at ha
    obtain ⟨e1, e2⟩ := C60_rejected x s (by rw [ha.2]; exact hr)
    by_cases hi : x.incomplete = true
    · refine Or.inl ⟨ha.2.symm.trans (e2.mpr hi), .phrase ?_, hidx⟩
      rcases h with ⟨w, f, hm, rfl, -⟩ | ⟨fw, f, ty, ds, hd, f1, t1, f2, t2, -, -, -, -, rfl⟩
      · simp only [frequencyWords, List.mem_cons, Prod.mk.injEq, List.not_mem_nil, or_false, List.cons.injEq] at hm
        rcases hm with ⟨h, -⟩ | ⟨⟨rfl, -⟩, -⟩ | ⟨⟨rfl, -⟩, -⟩ | ⟨⟨rfl, -⟩, -⟩
        · cases h
        all_goals simp [halfPhrases]
      · cases hi
    · refine Or.inr ⟨?_, by rw [← ha.1, e1]; rfl⟩
      cases r with
      | APPENDED => exact absurd rfl hr
      | NOT_APPENDED => rfl
      | GROUP_INVALIDATED => exact absurd (e2.mp ha.2) hi
  | @vicinity _ x c1 c2 h =>
    simp only [Group.append, Except.ok.injEq, Prod.mk.injEq] at ha
    rcases C61_rejected ws x c1 c2 h s (by rw [ha.2]; exact hr) with ⟨e, e1, -, hm⟩ | ⟨e, e1, -⟩
    · refine Or.inl ⟨ha.2.symm.trans e, ?_, hidx⟩
      cases h with
      | rotor => exact .phrase (by simp [halfPhrases])
      | kind hk =>
        rcases hk with ⟨w, hw, rfl⟩ | ⟨rfl, -⟩
        · exact .phenomenon hw
        · exact .phrase (by simp [halfPhrases])
      | headingAnd h1 h2 h3 => exact .secondHeading h1 h2 h3
      | moving h1 h2 h3 h4 => exact .movement h1 h2 h3 h4
      | _ =>
        simp only [VicinityGroup.append, VicinityGroup.expectNext, VicinityGroup.rejectGroup] at e
        exfalso
        repeat' split at e
        all_goals cases e
    · exact Or.inr ⟨ha.2.symm.trans e, by rw [← ha.1, e1]; rfl⟩
  | @misc _ x h =>
    simp only [Group.append, Except.ok.injEq, Prod.mk.injEq] at ha
    obtain ⟨e1, e2⟩ := C62_rejected x s (by rw [ha.2]; exact hr)
    by_cases hi : x.isValid = false
    · refine Or.inl ⟨ha.2.symm.trans (e2.mpr hi), ?_, hidx⟩
      generalize hp : ReportPart.RMK = p at h
      cases h with
      | density => exact .phrase (by simp [halfPhrases])
      | densityAlt => exact .phrase (by simp [halfPhrases])
      | hail => exact .phrase (by simp [halfPhrases])
      | hailInches h1 h2 => exact .hail h1 h2
      | _ => cases hi
    · refine Or.inr ⟨?_, by rw [← ha.1, e1]; rfl⟩
      cases r with
      | APPENDED => exact absurd rfl hr
      | NOT_APPENDED => rfl
      | GROUP_INVALIDATED => exact absurd (e2.mp ha.2) hi

theorem kind_unfit {t : VicinityType} {s : Str} {md : ReportMetadata} {g' : Group} {r : AppendResult}
    (ha : (Group.vicinity { t := t, incompleteType := .EXPECT_DIST_DIR1 }).append s .RMK md = .ok (g', r)) :
    r ≠ .NOT_APPENDED := by
  simp only [Group.append, VicinityGroup.append, VicinityGroup.expectNext,
    Except.ok.injEq, Prod.mk.injEq] at ha
  rintro rfl
  obtain ⟨-, ha⟩ := ha
  repeat' split at ha
  all_goals cases ha

theorem visibility_unfit {md : ReportMetadata} {ws : List Str} {s : Str} {x : VisibilityGroup}
    (hx : VisRemark ws x) (hm : NeedsMore ws ∨ RangeForObserver ws s) :
    ∃ g, Reads .RMK md ws g ∧ ∀ g' r, g.append s .RMK md = .ok (g', r) → r ≠ .NOT_APPENDED := by
  refine ⟨_, remark_reads (.visibility hx), ?_⟩
  intro g' r ha
  by_cases hr : r = .APPENDED
  · rw [hr]; simp
  simp only [Group.append, Except.ok.injEq, Prod.mk.injEq] at ha
  have ht := (C64_history ws x).mpr hx
  have hne : ws ≠ [] := by rintro rfl; cases ht
  rcases C64_rejected ws x s ht (fun y hy => by
    obtain ⟨x', hx', e⟩ := (taken_snoc hne s y).mp ((C64_history _ _).mpr hy)
    rw [ht] at hx'
    obtain rfl := Option.some.inj hx'
    rw [e] at ha
    exact hr ha.2.symm) with ⟨e, -⟩ | ⟨-, e⟩
  · rw [← ha.2, e]; simp
  · exact absurd hm e

theorem cloud_unfit {md : ReportMetadata} {ws : List Str} {s : Str} {x : CloudGroup} {g' : Group}
    {r : AppendResult} (hx : CloudRemark ws x) (hm : CloudNeedsMore ws)
    (ha : (Group.cloud x).append s .RMK md = .ok (g', r)) : r ≠ .NOT_APPENDED := by
  by_cases hr : r = .APPENDED
  · rw [hr]; simp
  simp only [Group.append, Except.ok.injEq, Prod.mk.injEq] at ha
  have ht := (C72_clouds ws x).mpr hx
  have hne : ws ≠ [] := by rintro rfl; cases ht
  rcases C72_clouds_rejected ws x s hx (fun y hy => by
    obtain ⟨x', hx', e⟩ := (taken_snoc hne s y).mp ((C72_clouds _ _).mpr hy)
    rw [ht] at hx'
    obtain rfl := Option.some.inj hx'
    rw [e] at ha
    exact hr ha.2.symm) with ⟨e, -⟩ | ⟨-, e⟩
  · rw [e] at ha
    rw [← ha.2]; simp
  · exact absurd hm e

theorem wind_unfit {md : ReportMetadata} {ws : List Str} {s : Str} {x : WindGroup}
    (hx : WindSequence .RMK (reportHour md) ws x) (hm : ws ∈ [[c!"WND"], [c!"PK"], [c!"PK", c!"WND"]]) :
    ∃ g, Reads .RMK md ws g ∧ ∀ g' r, g.append s .RMK md = .ok (g', r) → r ≠ .NOT_APPENDED := by
  refine ⟨_, remark_reads (.wind hx), ?_⟩
  intro g' r ha
  by_cases hr : r = .APPENDED
  · rw [hr]; simp
  simp only [Group.append, Except.ok.injEq, Prod.mk.injEq] at ha
  have ht := (C63_history .RMK md ws x).mpr hx
  have hne : ws ≠ [] := by rintro rfl; cases ht
  rcases C63_rejected .RMK md ws x s ht (fun y hy => by
    obtain ⟨x', hx', e⟩ := (taken_snoc hne s y).mp ((C63_history .RMK md _ _).mpr hy)
    rw [ht] at hx'
    obtain rfl := Option.some.inj hx'
    rw [e] at ha
    exact hr ha.2.symm) with ⟨e, -⟩ | ⟨-, e⟩
  · rw [← ha.2, e]; simp
  · exact absurd (List.mem_cons_of_mem _ (List.mem_cons_of_mem _ hm)) e

theorem missing_unfit {md : ReportMetadata} {w s : Str} {x y : Group} (h : (w, x, y) ∈ missingWords) :
    ∃ g, Reads .RMK md [w] g ∧ ∀ g' r, g.append s .RMK md = .ok (g', r) → r ≠ .NOT_APPENDED := by
  refine ⟨_, remark_reads (.missing h), ?_⟩
  rintro g' r ha rfl
  rw [missing_append h] at ha
  split at ha <;> cases ha

theorem sensor_unfit {md : ReportMetadata} {ws : List Str} {s : Str} {x : WeatherGroup}
    (h : Remark (reportHour md) ws (.weather x)) (hi : x.incompleteText ≠ .NONE) :
    ∃ g, Reads .RMK md ws g ∧ ∀ g' r, g.append s .RMK md = .ok (g', r) → r ≠ .NOT_APPENDED := by
  refine ⟨_, remark_reads h, ?_⟩
  rintro g' r ha rfl
  obtain ⟨t, w, i⟩ := x
  simp only [Group.append, WeatherGroup.append, Except.ok.injEq, Prod.mk.injEq] at ha
  cases i <;> simp only at ha <;> obtain ⟨-, ha⟩ := ha <;> first | exact hi rfl | (split at ha <;> cases ha)

theorem lightning_unfit {md : ReportMetadata} {w s : Str} {f : Frequency}
    (h : ([w], f) ∈ frequencyWords) :
    ∃ g, Reads .RMK md [w] g ∧ ∀ g' r, g.append s .RMK md = .ok (g', r) → r ≠ .NOT_APPENDED := by
  refine ⟨_, remark_reads (.lightning (c1 := []) (c2 := []) (Or.inl ⟨_, _, h, rfl, rfl, rfl, rfl⟩)), ?_⟩
  rintro g' r ha rfl
  simp only [Group.append, Except.ok.injEq, Prod.mk.injEq] at ha
  have := ((C60_rejected _ s (by rw [ha.2]; simp)).2.mpr rfl).symm.trans ha.2
  cases this

theorem misc_unfit {md : ReportMetadata} {ws : List Str} {s : Str} {x : MiscGroup}
    (h : MiscText .RMK ws x) (hi : x.isValid = false) :
    ∃ g, Reads .RMK md ws g ∧ ∀ g' r, g.append s .RMK md = .ok (g', r) → r ≠ .NOT_APPENDED := by
  refine ⟨_, remark_reads (.misc h), ?_⟩
  rintro g' r ha rfl
  simp only [Group.append, Except.ok.injEq, Prod.mk.injEq] at ha
  have := ((C62_rejected _ s (by rw [ha.2]; simp)).2.mpr hi).symm.trans ha.2
  cases this

/-- What is lacking a continuation is a remark, which does not merely refuse what does not continue it. -/
theorem lacking_group {md : ReportMetadata} {ws : List Str} {s : Str} (h : Lacking s ws) :
    ∃ g, Reads .RMK md ws g ∧ ∀ g' r, g.append s .RMK md = .ok (g', r) → r ≠ .NOT_APPENDED := by
  cases h with
  | phrase h =>
    simp only [halfPhrases, List.mem_cons, List.not_mem_nil, or_false] at h
    rcases h with rfl | rfl | rfl | rfl | rfl | rfl | rfl | rfl | rfl | rfl | rfl | rfl | rfl | rfl | rfl | rfl |
      rfl | rfl | rfl
    · exact wind_unfit (.missing rfl) (by simp)
    · exact wind_unfit (.peak rfl) (by simp)
    · exact wind_unfit (.peakWord rfl) (by simp)
    · exact missing_unfit (List.mem_cons_self ..)
    · exact missing_unfit (List.mem_cons_of_mem _ (List.mem_cons_self ..))
    · exact missing_unfit (List.mem_cons_of_mem _ (List.mem_cons_of_mem _ (List.mem_cons_self ..)))
    · exact missing_unfit (List.mem_of_getElem? (i := 3) rfl)
    · exact missing_unfit (List.mem_of_getElem? (i := 4) rfl)
    · exact missing_unfit (List.mem_of_getElem? (i := 5) rfl)
    · exact sensor_unfit .lightningSensor (by simp)
    · exact sensor_unfit .lightningSensorTemporarily (by simp)
    · exact lightning_unfit (List.mem_of_getElem? (i := 1) rfl)
    · exact lightning_unfit (List.mem_of_getElem? (i := 2) rfl)
    · exact lightning_unfit (List.mem_of_getElem? (i := 3) rfl)
    · refine ⟨_, remark_reads (.vicinity .rotor), ?_⟩
      rintro g' r ha rfl
      simp only [Group.append, VicinityGroup.append, Except.ok.injEq, Prod.mk.injEq] at ha
      obtain ⟨-, ha⟩ := ha
      split at ha <;> cases ha
    · exact ⟨_, remark_reads (.vicinity (.kind (Or.inr ⟨rfl, rfl⟩))), fun _ _ => kind_unfit⟩
    · exact misc_unfit .density rfl
    · exact misc_unfit .densityAlt rfl
    · exact misc_unfit .hail rfl
  | @visibility _ hm =>
    have : ∃ g, VisRemark ws g := by
      cases hm with
      | vis => exact ⟨_, .vis⟩
      | amount h hk => exact ⟨_, .visAmount h⟩
      | place h => exact ⟨_, .visWhere h⟩
      | observer h =>
        simp only [List.mem_cons, List.not_mem_nil, or_false] at h
        rcases h with rfl | rfl
        · exact ⟨_, .observer (t := .SURFACE) (by simp)⟩
        · exact ⟨_, .observer (t := .TOWER) (by simp)⟩
      | observerVis h =>
        simp only [List.mem_cons, List.not_mem_nil, or_false] at h
        rcases h with rfl | rfl
        · exact ⟨_, .observerVis (t := .SURFACE) (by simp)⟩
        · exact ⟨_, .observerVis (t := .TOWER) (by simp)⟩
      | rvr => exact ⟨_, .rvr⟩
    obtain ⟨x, hx⟩ := this
    exact visibility_unfit hx (Or.inl hm)
  | @visibilityRange _ hm =>
    have : ∃ g, VisRemark ws g := by
      obtain ⟨w, u, m, p, a, b, q, m', q', hw, hu, rfl, -⟩ := hm
      simp only [List.mem_cons, List.not_mem_nil, or_false] at hw
      rcases hw with rfl | rfl
      · exact ⟨_, VisRemark.observerAmount (t := .SURFACE) (by simp) (Amount.whole hu) rfl⟩
      · exact ⟨_, VisRemark.observerAmount (t := .TOWER) (by simp) (Amount.whole hu) rfl⟩
    obtain ⟨x, hx⟩ := this
    exact visibility_unfit hx (Or.inr hm)
  | @cloud _ hm =>
    have : ∃ g, CloudRemark ws g := by
      cases hm with
      | clouds => exact ⟨_, .clouds⟩
      | ceiling => exact ⟨_, .ceiling⟩
      | obscuration h => exact ⟨_, .obscuration h⟩
      | amount h => exact ⟨_, .amount h⟩
      | amountV h => exact ⟨_, .amountV h⟩
    obtain ⟨x, hx⟩ := this
    exact ⟨_, remark_reads (.cloud hx), fun _ _ => cloud_unfit hx hm⟩
  | hail h1 h2 =>
    refine ⟨_, remark_reads (.misc (.hailInches h1 h2)), ?_⟩
    rintro g' r ha rfl
    simp only [Group.append, Except.ok.injEq, Prod.mk.injEq] at ha
    have := ((C62_rejected _ s (by rw [ha.2]; simp)).2.mpr rfl).symm.trans ha.2
    cases this
  | phenomenon h => exact ⟨_, remark_reads (.vicinity (.kind (Or.inl ⟨_, h, rfl⟩))), fun _ _ => kind_unfit⟩
  | secondHeading h1 h2 h3 =>
    refine ⟨_, remark_reads (.vicinity (.headingAnd h1 h2 h3)), ?_⟩
    rintro g' r ha rfl
    simp only [Group.append, VicinityGroup.append, VicinityGroup.expectNext,
      Except.ok.injEq, Prod.mk.injEq] at ha
    obtain ⟨-, ha⟩ := ha
    repeat' split at ha
    all_goals cases ha
  | movement h1 h2 h3 h4 =>
    refine ⟨_, remark_reads (.vicinity (.moving h1 h2 h3 h4)), ?_⟩
    rintro g' r ha rfl
    simp only [Group.append, VicinityGroup.append, VicinityGroup.expectNext,
      Except.ok.injEq, Prod.mk.injEq] at ha
    obtain ⟨-, ha⟩ := ha
    repeat' split at ha
    all_goals cases ha

/-- A word that is two remarks is of no use alone, whichever is meant. -/
theorem ambiguous_lacking {w s : Str} (h : w ∈ ambiguous) : Lacking s [w] := by
  simp only [ambiguous, List.mem_cons, List.not_mem_nil, or_false] at h
  rcases h with rfl | rfl | rfl | rfl | rfl
  · exact .cloud (.obscuration (List.mem_of_getElem? (i := 0) rfl))
  · exact .cloud (.obscuration (List.mem_of_getElem? (i := 1) rfl))
  · exact .cloud (.obscuration (List.mem_of_getElem? (i := 2) rfl))
  · exact .cloud (.obscuration (List.mem_of_getElem? (i := 4) rfl))
  · exact .cloud (.obscuration (List.mem_of_getElem? (i := 5) rfl))

theorem recognise_inv {i : Nat} {s : Str} {p : ReportPart} {md : ReportMetadata} {g : Group}
    (h : recognise i s p md = .ok (some g)) : g.Inv := by
  by_cases h7 : i = 7
  · subst h7
    obtain ⟨r, hr, hi⟩ := WeatherGroup.parse_ok s p md
    simp only [recognise, hr, Except.ok.injEq, Option.map_eq_some_iff] at h
    obtain ⟨a, ha, rfl⟩ := h
    exact hi a ha
  by_cases h12 : i = 12
  · subst h12
    obtain ⟨a, ha, rfl⟩ := map_some h
    exact MinMaxTemperatureGroup.parse_inv ha
  by_cases h16 : i = 16
  · subst h16
    obtain ⟨a, ha, rfl⟩ := map_some h
    exact CloudTypesGroup.parse_inv ha
  have := GroupParser.recognise_index h
  cases g <;> first | trivial | exact absurd this.symm ‹_›

theorem reads_inv {p : ReportPart} {md : ReportMetadata} {ws : List Str} {g : Group} (h : Reads p md ws g) :
    g.Inv := by
  induction h with
  | first h => exact recognise_inv h
  | more hr ha ih =>
    obtain ⟨r, e, hi, -⟩ := Group.append_ok ih _ _ _
    rw [ha] at e
    obtain rfl := Except.ok.inj e
    exact hi

/-- A word either continues a remark, or breaks it, or is left. -/
theorem remark_cases {md : ReportMetadata} {ws : List Str} {g : Group} (h : Reads .RMK md ws g) (s : Str) :
    (∃ g', g.append s .RMK md = .ok (g', .APPENDED)) ∨
    (∃ g', g.append s .RMK md = .ok (g', .GROUP_INVALIDATED) ∧ Lacking s ws ∧ g'.index = g.index) ∨
    (g.append s .RMK md = .ok (settled g, .NOT_APPENDED) ∧ ¬ Lacking s ws) := by
  obtain ⟨⟨g', r⟩, ha, -⟩ := Group.append_ok (reads_inv h) s .RMK md
  by_cases hr : r = .APPENDED
  · subst hr
    exact Or.inl ⟨g', ha⟩
  right
  rcases remark_left h ha hr with ⟨rfl, hl, hi⟩ | ⟨rfl, rfl⟩
  · exact Or.inl ⟨g', ha, hl, hi⟩
  · refine Or.inr ⟨ha, fun hl => ?_⟩
    obtain ⟨g0, h0, hn⟩ := lacking_group (md := md) hl
    rcases remark_unique h h0 with rfl | ⟨w, hw, rfl⟩
    · exact hn _ _ ha rfl
    · have hg := reads_single h
      obtain ⟨⟨x, hx⟩, ⟨y, hy⟩⟩ := C66_ambiguous w md hw
      have hi : g.index = 6 ∨ g.index = 19 := by
        rcases C66_one_kind _ _ _ _ _ _ _ _ hg hx with e | ⟨-, -, ⟨e, -⟩ | ⟨e, -⟩⟩
        · exact Or.inl e
        · exact Or.inl e
        · exact Or.inr e
      rcases hi with hi | hi
      · rw [hi] at hg
        obtain ⟨k, hk, rfl⟩ := obscuration_word hw hg
        exact cloud_unfit (.obscuration hk) (.obscuration hk) ha rfl
      · rw [hi] at hg
        obtain ⟨t, ht, rfl⟩ := phenomenon_word hw hg
        exact kind_unfit ha rfl

/-- C72. The words determine the remark, except that the name of an obscuration alone may also be the
beginning of a phenomenon in the vicinity. -/
theorem C72_unique (now : Option Nat) {ws : List Str} {g g' : Group} (h : Remark now ws g)
    (h' : Remark now ws g') : g = g' ∨ ∃ w ∈ ambiguous, ws = [w] := by
  have e : reportHour { reportTime := now.map fun h => { hourValue := h } } = now := by
    cases now <;> rfl
  rw [← e] at h h'
  exact remark_unique (remark_reads h) (remark_reads h')

/-- C72. If no remark begins with the words of a remark and the next word, the remark is complete as it
is, or the words are of no use. -/
theorem C72_rejected (md : ReportMetadata) (ws : List Str) (g : Group) (s : Str)
    (h : Remark (md.reportTime.map (·.hourValue)) ws g)
    (hn : ∀ g', ¬ Remark (md.reportTime.map (·.hourValue)) (ws ++ [s]) g') :
    (¬ Lacking s ws ∧ g.append s .RMK md = .ok (settled g, .NOT_APPENDED)) ∨
    (Lacking s ws ∧ ∃ g', g.append s .RMK md = .ok (g', .GROUP_INVALIDATED)) := by
  have hr := remark_reads (md := md) h
  rcases remark_cases hr s with ⟨g', ha⟩ | ⟨g', ha, hl, -⟩ | ⟨ha, hl⟩
  · exact absurd (reads_remark (.more hr ha)) (hn g')
  · exact Or.inr ⟨hl, g', ha⟩
  · exact Or.inl ⟨hl, ha⟩

/-- C72. A word continues a remark just when the words of the remark and this word are a remark. -/
theorem C72_continues (md : ReportMetadata) (ws : List Str) (g g' : Group) (s : Str)
    (h : Remark (md.reportTime.map (·.hourValue)) ws g)
    (ha : g.append s .RMK md = .ok (g', .APPENDED)) :
    Remark (md.reportTime.map (·.hourValue)) (ws ++ [s]) g' :=
  reads_remark (.more (remark_reads h) ha)

/-! ### Cases -/

/-- Peak wind without its value is of no use before sea level pressure. -/
example : Remark none [c!"PK", c!"WND"] (.wind { windType := .PEAK_WIND, incompleteText := .PK_WND }) ∧
    Lacking c!"SLP134" [c!"PK", c!"WND"] :=
  ⟨.wind (.peakWord rfl), .phrase (by simp [halfPhrases])⟩

/-- Smoke, or smoke in the vicinity. -/
example : Remark none [c!"FU"]
      (.cloud { tp := .OBSCURATION, incompleteText := .OBSCURATION, cldTp := { tp := .SMOKE } }) ∧
    Remark none [c!"FU"] (.vicinity { t := .SMOKE, incompleteType := .EXPECT_DIST_DIR1 }) :=
  ⟨.cloud (.obscuration (by simp [remarkObscurations])),
    .vicinity (.kind (Or.inl ⟨_, by simp [vicinityWords], rfl⟩))⟩

end Metaf.Props

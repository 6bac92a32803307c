import Verif.Props.Clouds
import Verif.Props.VisibilityWords
import Verif.Props.Headings

/-!
Remarks on clouds, made of several texts.
-/

set_option linter.unusedSectionVars false

namespace Metaf.Props

open Metaf Metaf.Spec Metaf.CloudGroup

variable [FloatSem]

/-! ### Specification -/

/-- A height of so many hundreds of feet. -/
def hundreds (n : Nat) : Distance := ⟨.NONE, some (100 * n), .FEET⟩

/-- A runway, or a direction (or NDV). -/
inductive PlaceWord : Str → Option Runway → Option Direction → Prop
  | runway {s r} : RunwayWord s r → PlaceWord s (some r) none
  | octant {w n} : (w, n) ∈ octantNames → PlaceWord w none (some ⟨n, .VALUE_CARDINAL⟩)
  | ndv : PlaceWord c!"NDV" none (some ⟨0, .NDV⟩)

/-- A ceiling: one height, or two between which it varies. -/
inductive CeilingWord : Str → CloudGroup → Prop
  | height {n} : n < 1000 → CeilingWord (decimal 3 n) { tp := .CEILING, heightOrVertVis := hundreds n }
  | range {n m} : n < 1000 → m < 1000 → CeilingWord (decimal 3 n ++ 'V' :: decimal 3 m)
      { tp := .VARIABLE_CEILING, heightOrVertVis := hundreds n, maxHt := hundreds m }

/-- The sequences of texts which are a remark on clouds, and the group. -/
inductive CloudRemark : List Str → CloudGroup → Prop
  | clouds : CloudRemark [c!"CLD"] { tp := .CLD_MISG, incompleteText := .CLD }
  | missing : CloudRemark [c!"CLD", c!"MISG"] { tp := .CLD_MISG }
  | ceiling : CloudRemark [c!"CIG"] { tp := .CEILING, incompleteText := .CIG }
  | ceilingHeight {s g} : CeilingWord s g → CloudRemark [c!"CIG", s] { g with incompleteText := .CIG_NUM }
  | ceilingPlace {s g w r d} : CeilingWord s g → PlaceWord w r d →
      CloudRemark [c!"CIG", s, w] { g with rw := r, dir := d }
  | noCeiling : CloudRemark [c!"CHINO"] { tp := .CHINO, incompleteText := .CHINO }
  | noCeilingPlace {w r d} : PlaceWord w r d →
      CloudRemark [c!"CHINO", w] { tp := .CHINO, rw := r, dir := d }
  | obscuration {s k} : (s, k) ∈ remarkObscurations →
      CloudRemark [s] { tp := .OBSCURATION, incompleteText := .OBSCURATION, cldTp := { tp := k } }
  | obscurationAmount {s k w a n} : (s, k) ∈ remarkObscurations → AmountText w a (some n) →
      CloudRemark [s, w]
        { tp := .OBSCURATION, amnt := a, heightOrVertVis := hundreds n, cldTp := ⟨k, hundreds n, maxOkta a⟩ }
  | amount {s a h} : AmountText s a h →
      CloudRemark [s] { tp := .CLOUD_LAYER, incompleteText := .RMK_AMOUNT, amnt := a
                        heightOrVertVis := (h.map hundreds).getD {} }
  | amountV {s a h} : AmountText s a h →
      CloudRemark [s, c!"V"] { tp := .CLOUD_LAYER, incompleteText := .RMK_AMOUNT_V, amnt := a
                               heightOrVertVis := (h.map hundreds).getD {} }
  | varying {s a h w b} : AmountText s a h → (a, w, b) ∈ variableAmounts →
      CloudRemark [s, c!"V", w] { tp := .CLOUD_LAYER, amnt := b, heightOrVertVis := (h.map hundreds).getD {} }

/-- Remarks on clouds which are of no use without a continuation. -/
inductive CloudNeedsMore : List Str → Prop
  | clouds : CloudNeedsMore [c!"CLD"]
  | ceiling : CloudNeedsMore [c!"CIG"]
  | obscuration {s k} : (s, k) ∈ remarkObscurations → CloudNeedsMore [s]
  | amount {s a h} : AmountText s a h → CloudNeedsMore [s]
  | amountV {s a h} : AmountText s a h → CloudNeedsMore [s, c!"V"]

/-! ### Proofs -/

theorem place_iff (s : Str) (r : Option Runway) (d : Option Direction) :
    PlaceWord s r d ↔
      (∃ x, Runway.fromString s true = some x ∧ r = some x ∧ d = none) ∨
      (Runway.fromString s true = none ∧ ∃ x, Direction.fromCardinalString s = some x ∧ r = none ∧ d = some x) := by
  have hr : ∀ r, Runway.fromString s true = some r ↔ RunwayWord s r := by
    intro r
    rw [C24_runway]
    simp only [true_and]
    rfl
  constructor
  · intro h
    cases h with
    | runway h => exact Or.inl ⟨_, (hr _).mpr h, rfl, rfl⟩
    | @octant _ n h =>
      refine Or.inr ⟨?_, _, (C47_cardinal _ false false _).mpr (Or.inl ⟨_, h, rfl⟩), rfl, rfl⟩
      simp only [octantNames, List.mem_cons, Prod.mk.injEq, List.not_mem_nil, or_false] at h
      rcases h with ⟨rfl, -⟩ | ⟨rfl, -⟩ | ⟨rfl, -⟩ | ⟨rfl, -⟩ | ⟨rfl, -⟩ | ⟨rfl, -⟩ | ⟨rfl, -⟩ | ⟨rfl, -⟩ <;> rfl
    | ndv => exact Or.inr ⟨rfl, _, rfl, rfl, rfl⟩
  · rintro (⟨x, hx, rfl, rfl⟩ | ⟨-, x, hx, rfl, rfl⟩)
    · exact .runway ((hr x).mp hx)
    · rcases (C47_cardinal s false false x).mp hx with ⟨n, hn, rfl⟩ | ⟨rfl, rfl⟩ | ⟨h, -⟩ | ⟨h, -⟩ | ⟨h, -⟩
      · exact .octant hn
      · exact .ndv
      all_goals cases h

theorem appendPlace_iff (g g' : CloudGroup) (s : Str) (hr : g.rw = none) (hd : g.dir = none) :
    (g.appendRunwayOrCardinalDirection s = (g', .APPENDED) ↔
      ∃ r d, PlaceWord s r d ∧ g' = { g with rw := r, dir := d, incompleteText := .NONE }) ∧
    ((g.appendRunwayOrCardinalDirection s).2 ≠ .APPENDED →
      g.appendRunwayOrCardinalDirection s = ({ g with incompleteText := .NONE }, .NOT_APPENDED)) := by
  simp only [place_iff]
  unfold appendRunwayOrCardinalDirection
  obtain ⟨tp, a, h, mh, cv, rw_, dr, ct, it⟩ := g
  subst hr hd
  cases h1 : Runway.fromString s true with
  | some r => simp [eq_comm]
  | none =>
    cases h2 : Direction.fromCardinalString s with
    | some d => simp [eq_comm]
    | none => simp

theorem cloud_step {ws : List Str} {g g' : CloudGroup} {s : Str} (h : CloudRemark ws g)
    (ha : g.append s = (g', .APPENDED)) : CloudRemark (ws ++ [s]) g' := by
  cases h with
  | clouds =>
    simp only [CloudGroup.append] at ha
    split at ha
    · cases ha
    · rename_i e; obtain rfl : s = c!"MISG" := by simpa using e
      cases ha; exact .missing
  | missing => cases ha
  | ceiling =>
    rcases (C48_ceiling _ _ _ rfl).mp ha with ⟨n, hn, rfl, rfl⟩ | ⟨n, m, hn, hm, rfl, rfl⟩
    · exact .ceilingHeight (.height hn)
    · exact .ceilingHeight (.range hn hm)
  | @ceilingHeight v g hv =>
    obtain ⟨r, d, hp, rfl⟩ := (appendPlace_iff _ _ _ (by cases hv <;> rfl) (by cases hv <;> rfl)).1.mp ha
    have := CloudRemark.ceilingPlace hv hp
    cases hv <;> exact this
  | ceilingPlace hv => cases hv <;> cases ha
  | noCeiling =>
    obtain ⟨r, d, hp, rfl⟩ := (appendPlace_iff _ _ _ rfl rfl).1.mp ha
    exact .noCeilingPlace hp
  | noCeilingPlace => cases ha
  | obscuration hk =>
    obtain ⟨a, n, hw, rfl⟩ := (C48_obscuration _ _ _ rfl).mp ha
    exact .obscurationAmount hk hw
  | obscurationAmount => cases ha
  | amount hw =>
    simp only [CloudGroup.append] at ha
    split at ha
    · cases ha
    · rename_i e; obtain rfl : s = c!"V" := by simpa using e
      cases ha; exact .amountV hw
  | amountV hw =>
    obtain ⟨v, hv, rfl⟩ := (C48_variable _ _ _ rfl).mp ha
    exact .varying hw hv
  | varying => cases ha

/-- In remarks, exactly the sequences of texts above are taken as one cloud group, and it holds exactly
what they say. -/
theorem C72_clouds (ws : List Str) (g : CloudGroup) :
    taken (CloudGroup.parse · .RMK) CloudGroup.append ws = some g ↔ CloudRemark ws g := by
  constructor
  · induction ws using List.reverseRecOn generalizing g with
    | nil => intro h; cases h
    | append_singleton ws s ih =>
      intro h
      by_cases hne : ws = []
      · subst hne
        rw [List.nil_append, taken_one, C48_remark] at h
        rcases h with ⟨rfl, rfl⟩ | ⟨rfl, rfl⟩ | ⟨rfl, rfl⟩ | ⟨k, hk, rfl⟩ | ⟨a, n, hs, rfl⟩
        · exact .clouds
        · exact .ceiling
        · exact .noCeiling
        · exact .obscuration hk
        · exact .amount hs
      · obtain ⟨g0, h0, ha⟩ := (taken_snoc hne s g).mp h
        exact cloud_step (ih g0 h0) ha
  · intro h
    have one : ∀ {w g}, CloudGroup.parse w .RMK = some g →
        taken (CloudGroup.parse · .RMK) CloudGroup.append [w] = some g := by
      intro w g h; rw [taken_one]; exact h
    have more : ∀ {ws g w g'}, ws ≠ [] → taken (CloudGroup.parse · .RMK) CloudGroup.append ws = some g →
        g.append w = (g', .APPENDED) →
        taken (CloudGroup.parse · .RMK) CloudGroup.append (ws ++ [w]) = some g' :=
      fun hne h ha => (taken_snoc hne _ _).mpr ⟨_, h, ha⟩
    have hceil : ∀ {s g}, CeilingWord s g → taken (CloudGroup.parse · .RMK) CloudGroup.append [c!"CIG", s] =
        some { g with incompleteText := .CIG_NUM } := by
      intro s g hv
      refine more (ws := [c!"CIG"]) (by simp) (one rfl) ((C48_ceiling _ _ _ rfl).mpr ?_)
      cases hv with
      | height hn => exact Or.inl ⟨_, hn, rfl, rfl⟩
      | range hn hm => exact Or.inr ⟨_, _, hn, hm, rfl, rfl⟩
    cases h with
    | clouds => exact one rfl
    | missing => exact more (ws := [c!"CLD"]) (by simp) (one rfl) rfl
    | ceiling => exact one rfl
    | ceilingHeight hv => exact hceil hv
    | @ceilingPlace s g w r d hv hp =>
      refine more (ws := [c!"CIG", s]) (by simp) (hceil hv) ?_
      refine (appendPlace_iff _ _ _ (by cases hv <;> rfl) (by cases hv <;> rfl)).1.mpr ⟨r, d, hp, ?_⟩
      cases hv <;> rfl
    | noCeiling => exact one rfl
    | noCeilingPlace hp =>
      exact more (ws := [c!"CHINO"]) (by simp) (one rfl) ((appendPlace_iff _ _ _ rfl rfl).1.mpr ⟨_, _, hp, rfl⟩)
    | obscuration hk => exact one ((C48_remark _ _).mpr (Or.inr (Or.inr (Or.inr (Or.inl ⟨_, hk, rfl⟩)))))
    | @obscurationAmount s k w a n hk hw =>
      exact more (ws := [s]) (by simp)
        (one ((C48_remark _ _).mpr (Or.inr (Or.inr (Or.inr (Or.inl ⟨_, hk, rfl⟩))))))
        ((C48_obscuration _ _ _ rfl).mpr ⟨_, _, hw, rfl⟩)
    | amount hs => exact one ((C48_remark _ _).mpr (Or.inr (Or.inr (Or.inr (Or.inr ⟨_, _, hs, rfl⟩)))))
    | @amountV s _ _ hs =>
      exact more (ws := [s]) (by simp)
        (one ((C48_remark _ _).mpr (Or.inr (Or.inr (Or.inr (Or.inr ⟨_, _, hs, rfl⟩)))))) rfl
    | @varying s a h w b hs hb =>
      refine more (ws := [s, c!"V"]) (by simp) (more (ws := [s]) (by simp)
        (one ((C48_remark _ _).mpr (Or.inr (Or.inr (Or.inr (Or.inr ⟨_, _, hs, rfl⟩)))))) rfl) ?_
      exact (C48_variable _ _ _ rfl).mpr ⟨_, hb, rfl⟩

/-- A text which does not continue the remark: if the remark is of no use without a continuation, the
group is discarded; otherwise it is complete and stays as it was. -/
theorem C72_clouds_rejected (ws : List Str) (g : CloudGroup) (s : Str) (h : CloudRemark ws g)
    (hn : ∀ g', ¬ CloudRemark (ws ++ [s]) g') :
    (g.append s = (g, .GROUP_INVALIDATED) ∧ CloudNeedsMore ws) ∨
    (g.append s = ({ g with incompleteText := .NONE }, .NOT_APPENDED) ∧ ¬ CloudNeedsMore ws) := by
  have hx : (g.append s).2 ≠ .APPENDED := fun e => hn _ (cloud_step h (Prod.ext rfl e))
  have two : ∀ {a b : Str}, CloudNeedsMore [a, b] → b = c!"V" ∧ ∃ x n, AmountText a x n := by
    intro a b h
    generalize hv : [a, b] = v at h
    cases h with
    | amountV h =>
      obtain ⟨rfl, rfl⟩ : a = _ ∧ b = _ := by simpa using hv
      exact ⟨rfl, _, _, h⟩
    | _ => simp at hv
  have three : ∀ {a b c : Str}, ¬ CloudNeedsMore [a, b, c] := by
    intro a b c h
    generalize hv : [a, b, c] = v at h
    cases h <;> simp at hv
  have hamt : ∀ {s : Str} {a n}, AmountText s a n → s ≠ c!"CLD" ∧ s ≠ c!"CIG" ∧ s ≠ c!"CHINO" ∧
      ∀ k, (s, k) ∉ remarkObscurations := by
    rintro s a n ⟨t, ht, -, rfl⟩
    simp only [List.mem_cons, Prod.mk.injEq, List.not_mem_nil, or_false] at ht
    rcases ht with ⟨rfl, -⟩ | ⟨rfl, -⟩ | ⟨rfl, -⟩ | ⟨rfl, -⟩ <;> simp [remarkObscurations]
  cases h with
  | clouds =>
    refine Or.inl ⟨?_, .clouds⟩
    simp only [CloudGroup.append] at hx ⊢
    split <;> simp_all
  | missing => exact Or.inr ⟨rfl, fun h => (by simpa using (two h).1)⟩
  | ceiling =>
    refine Or.inl ⟨?_, .ceiling⟩
    simp only [CloudGroup.append, appendCeiling] at hx ⊢
    split
    · rename_i d hd
      simp only [hd] at hx
      split
      · rfl
      · rename_i h2; simp [h2] at hx
    · rename_i hd
      simp only [hd] at hx
      split
      · rfl
      · rename_i m hm
        simp only [hm] at hx
        split
        · rfl
        · rename_i h1
          simp only [h1] at hx
          split
          · rfl
          · rename_i h2; simp [h2] at hx
  | @ceilingHeight v g hv =>
    refine Or.inr ⟨?_, ?_⟩
    · exact (appendPlace_iff _ g s (by cases hv <;> rfl) (by cases hv <;> rfl)).2 hx
    · intro h
      obtain ⟨-, _, _, h1⟩ := two h
      simpa using (hamt h1).2.1
  | ceilingPlace hv => exact Or.inr ⟨by cases hv <;> rfl, three⟩
  | noCeiling =>
    refine Or.inr ⟨(appendPlace_iff _ {} s rfl rfl).2 hx, ?_⟩
    intro h
    generalize hv : [c!"CHINO"] = v at h
    cases h with
    | amount h =>
      have : _ = c!"CHINO" := (List.cons.inj hv).1.symm
      exact (hamt h).2.2.1 this
    | obscuration h =>
      obtain rfl := (List.cons.inj hv).1
      simp [remarkObscurations] at h
    | _ => simp at hv
  | noCeilingPlace =>
    refine Or.inr ⟨rfl, ?_⟩
    intro h
    obtain ⟨-, _, _, h1⟩ := two h
    simpa using (hamt h1).2.2.1
  | obscuration hk =>
    refine Or.inl ⟨?_, .obscuration hk⟩
    simp only [CloudGroup.append, appendObscuration] at hx ⊢
    split
    · rfl
    · rename_i m hm
      simp only [hm] at hx
      split
      · rfl
      · rename_i h1
        simp only [h1] at hx
        split
        · rfl
        · rename_i h2; simp [h2] at hx
  | obscurationAmount hk =>
    refine Or.inr ⟨rfl, ?_⟩
    intro h
    obtain ⟨-, _, _, h1⟩ := two h
    exact (hamt h1).2.2.2 _ hk
  | amount hs =>
    refine Or.inl ⟨?_, .amount hs⟩
    simp only [CloudGroup.append] at hx ⊢
    split <;> simp_all
  | amountV hs =>
    refine Or.inl ⟨?_, .amountV hs⟩
    simp only [CloudGroup.append, appendVariableCloudAmount] at hx ⊢
    split
    · rfl
    · rename_i h1
      simp only [h1] at hx
      have key : ∀ (q : Amount) (g : CloudGroup),
          (if q = .NOT_REPORTED then (g, AppendResult.GROUP_INVALIDATED)
            else ({ g with amnt := q, incompleteText := .NONE }, .APPENDED)).2 ≠ .APPENDED →
          (if q = .NOT_REPORTED then (g, AppendResult.GROUP_INVALIDATED)
            else ({ g with amnt := q, incompleteText := .NONE }, .APPENDED)) = (g, .GROUP_INVALIDATED) := by
        intro q g h
        split
        · rfl
        · rename_i h2; rw [if_neg h2] at h; exact absurd rfl h
      exact key _ _ hx
  | varying => exact Or.inr ⟨rfl, three⟩

/-! ### Cases -/

example : CloudRemark [c!"CIG", c!"005V010", c!"RWY11"]
    { tp := .VARIABLE_CEILING, heightOrVertVis := hundreds 5, maxHt := hundreds 10, rw := some ⟨11, .NONE⟩ } :=
  .ceilingPlace (.range (n := 5) (m := 10) (by omega) (by omega))
    (.runway ⟨by decide, c!"RWY", by simp, rfl⟩)

example : CloudRemark [c!"BKN014", c!"V", c!"OVC"]
    { tp := .CLOUD_LAYER, amnt := .VARIABLE_BROKEN_OVERCAST, heightOrVertVis := hundreds 14 } :=
  .varying (a := .BROKEN) (h := some 14) ⟨c!"BKN", by simp, by simp, rfl⟩ (by simp [variableAmounts])

example : CloudNeedsMore [c!"CIG"] := .ceiling

end Metaf.Props

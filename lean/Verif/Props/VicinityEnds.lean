import Verif.Props.Vicinity

/-!
C61: the texts after which a group for a phenomenon in the vicinity is complete.
-/

namespace Metaf.Props

open Metaf Metaf.Spec

set_option linter.unusedSectionVars false

variable [FloatSem]

/-- A word is none of those which need another word after them. -/
def Closing (w : Str) : Prop := w ≠ c!"AND" ∧ w ≠ c!"MOV"

theorem closing_heading {w : Str} {f t : Option Direction} {c : List Cardinal} (h : HeadingText w f t c) :
    Closing w := by
  have e := (heading_iff w f t).mpr ⟨c, h⟩
  constructor <;> rintro rfl
  · rw [heading_keyword (by simp)] at e; cases e
  · rw [heading_keyword (by simp)] at e; cases e

theorem closing_distance {w : Str} {d : Distance} (h : DistanceWord w d) : Closing w := by
  rcases h with ⟨rfl, -⟩ | ⟨rfl, -⟩ | ⟨k, n, hk, -, rfl, -⟩
  · constructor <;> decide
  · constructor <;> decide
  · have last : (decimal k n ++ c!"KM").getLast? = some 'M' := by simp
    constructor <;> intro e
    · rw [e] at last; revert last; decide
    · rw [e] at last; revert last; decide

theorem closing_movement {w : Str} {d : Direction} (h : MovementWord w d) : Closing w := by
  rcases h with ⟨n, h, -⟩ | ⟨rfl, -⟩ | ⟨rfl, -⟩
  · constructor <;> rintro rfl <;> revert h <;> simp [octantNames]
  · constructor <;> decide
  · constructor <;> decide

theorem closing_second {hs : List Str} {f t : Option Direction} {c : List Cardinal} (h : SecondHeading hs f t c)
    (hne : hs ≠ []) : ∃ i w, hs = i ++ [w] ∧ Closing w := by
  cases h with
  | none => exact absurd rfl hne
  | bare h => exact ⟨[], _, rfl, closing_heading h⟩
  | and h => exact ⟨[c!"AND"], _, rfl, closing_heading h⟩

theorem kind_first {kw : List Str} {t : VicinityType} (h : KindWords kw t) :
    kw = [c!"ROTOR", c!"CLD"] ∨ ∃ w, kw = [w] ∧ w ≠ c!"ROTOR" := by
  rcases h with ⟨w, h, rfl⟩ | ⟨rfl, -⟩
  · refine Or.inr ⟨w, rfl, ?_⟩
    rintro rfl
    revert h
    simp [vicinityWords]
  · exact Or.inl rfl

/-- Words after the name of a phenomenon do not make another name. -/
theorem kind_longer {kw rest : List Str} {t : VicinityType} (h : KindWords kw t) (hr : rest ≠ []) :
    (¬ ∃ u, KindWords (kw ++ rest) u) ∧ kw ++ rest ≠ [c!"ROTOR"] := by
  obtain ⟨a, as, rfl⟩ := List.exists_cons_of_ne_nil hr
  rcases kind_first h with rfl | ⟨w, rfl, hw⟩
  · refine ⟨?_, by simp⟩
    rintro ⟨u, hu⟩
    rcases kind_first hu with e | ⟨w, e, -⟩ <;> simp at e
  · refine ⟨?_, by simp⟩
    rintro ⟨u, hu⟩
    rcases kind_first hu with e | ⟨w', e, -⟩
    · simp only [List.cons_append, List.nil_append, List.cons.injEq] at e
      exact hw e.1
    · simp at e

/-- C61: a group which is left as it is when a word does not belong to it has more than the name of the phenomenon
and does not end with AND or MOV. -/
theorem C61_complete (ws : List Str) (g : VicinityGroup) (c1 c2 : List Cardinal) (hv : VicinityText ws g c1 c2)
    (s : Str) (h : (g.append s).2 = .NOT_APPENDED) :
    (¬ ∃ t, KindWords ws t) ∧ ws ≠ [c!"ROTOR"] ∧ ∀ ws', ws ≠ ws' ++ [c!"AND"] ∧ ws ≠ ws' ++ [c!"MOV"] := by
  have ends : ∀ {i w}, Closing w → ∀ ws', i ++ [w] ≠ ws' ++ [c!"AND"] ∧ i ++ [w] ≠ ws' ++ [c!"MOV"] := by
    intro i w hw ws'
    constructor <;> intro e
    · exact hw.1 (List.singleton_inj.mp (List.append_inj_right' e rfl))
    · exact hw.2 (List.singleton_inj.mp (List.append_inj_right' e rfl))
  have never : ∀ {i w kw t rest}, KindWords kw t → i ++ [w] = kw ++ rest → rest ≠ [] → Closing w →
      (¬ ∃ t, KindWords (i ++ [w]) t) ∧ i ++ [w] ≠ [c!"ROTOR"] ∧
        ∀ ws', i ++ [w] ≠ ws' ++ [c!"AND"] ∧ i ++ [w] ≠ ws' ++ [c!"MOV"] := by
    intro i w kw t rest hk e hr hw
    refine ⟨?_, ?_, ends hw⟩
    · rw [e]; exact (kind_longer hk hr).1
    · rw [e]; exact (kind_longer hk hr).2
  cases hv with
  | rotor =>
    unfold VicinityGroup.append at h
    simp only at h
    split at h <;> cases h
  | kind hk =>
    unfold VicinityGroup.append at h
    simp only at h
    repeat' split at h
    all_goals cases h
  | distance hk hd => exact never hk rfl (by simp) (closing_distance hd)
  | heading hk hd hh => exact never hk (by simp only [List.append_assoc]; rfl) (by simp) (closing_heading hh)
  | headingAnd hk hd hh =>
    unfold VicinityGroup.append at h
    simp only at h
    split at h <;> cases h
  | headings hk hd hh hs hne =>
    obtain ⟨i, w, rfl, hw⟩ := closing_second hs hne
    rw [← List.append_assoc]
    exact never hk (by simp only [List.append_assoc]; rfl) (by simp) hw
  | moving hk hd hh hs =>
    unfold VicinityGroup.append at h
    simp only at h
    split at h <;> cases h
  | moved hk hd hh hs hm => exact never hk (by simp only [List.append_assoc]; rfl) (by simp) (closing_movement hm)

/-- Example: `CB DSNT` is complete. -/
example : ∃ g, VicinityText [c!"CB", c!"DSNT"] g [] [] ∧ (g.append c!"PRESFR").2 = .NOT_APPENDED :=
  ⟨_, .distance (kw := [c!"CB"]) (Or.inl ⟨c!"CB", List.Mem.tail _ (List.Mem.head _), rfl⟩) (Or.inl ⟨rfl, rfl⟩),
    by decide +kernel⟩

end Metaf.Props

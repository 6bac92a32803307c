import Verif.Proofs.Shapes

/-!
C66. A text is recognised as at most one kind of group, so the order in which the kinds are tried
matters only for five texts in remarks.
-/

set_option linter.unusedSectionVars false

namespace Metaf.Props

open Metaf.Spec

/-- Texts which in remarks are both an obscuration (kind 6, clouds) and a phenomenon in the vicinity
(kind 19). -/
def ambiguous : List Str := [c!"BLSN", c!"BLDU", c!"BLSA", c!"FU", c!"FG"]

section

variable [FloatSem]

theorem both_ambiguous {s : Str} {md md' : ReportMetadata} {g g' : Group}
    (h : recognise 6 s .RMK md = .ok (some g)) (h' : recognise 19 s .RMK md' = .ok (some g')) :
    s ∈ ambiguous := by
  have h1 := (recognise_shape h).2
  have h2 := (Rx.lang_lits _).mp (recognise_shape h').2
  rcases Rx.lang_alt.mp h1 with h1 | h1
  · have h1 := (Rx.lang_lits _).mp h1
    simp only [remarkObscurations, List.map_cons, List.map_nil, List.mem_cons, List.not_mem_nil, or_false] at h1
    rcases h1 with rfl | rfl | rfl | rfl | rfl | rfl | rfl | rfl | rfl <;> first
      | (simp [ambiguous]; done)
      | (revert h2; decide)
  · exfalso
    obtain ⟨u, v, hu, -, rfl⟩ := Rx.lang_seq.mp h1
    have hu := (Rx.lang_lits _).mp hu
    simp only [List.mem_cons, List.not_mem_nil, or_false] at hu
    rcases hu with rfl | rfl | rfl | rfl <;> simp at h2

/-- C66. A text in a part of the report is recognised as at most one kind of group. In remarks five
texts are recognised both as an obscuration by `CloudGroup` and as a phenomenon by `VicinityGroup`. -/
theorem C66_one_kind (s : Str) (p : ReportPart) (md md' : ReportMetadata) (i j : Nat) (g g' : Group)
    (h : recognise i s p md = .ok (some g)) (h' : recognise j s p md' = .ok (some g')) :
    i = j ∨ (p = .RMK ∧ s ∈ ambiguous ∧ (i = 6 ∧ j = 19 ∨ i = 19 ∧ j = 6)) := by
  by_cases hij : i = j
  · exact Or.inl hij
  · right
    obtain ⟨hi, h1⟩ := recognise_shape h
    obtain ⟨hj, h2⟩ := recognise_shape h'
    obtain ⟨rfl, hc⟩ := shape_apart hi hj hij h1 h2
    refine ⟨rfl, ?_, hc⟩
    rcases hc with ⟨rfl, rfl⟩ | ⟨rfl, rfl⟩
    · exact both_ambiguous h h'
    · exact both_ambiguous h' h

/-- C66. The five texts are indeed recognised in both ways. -/
theorem C66_ambiguous (s : Str) (md : ReportMetadata) (h : s ∈ ambiguous) :
    (∃ g, recognise 6 s .RMK md = .ok (some g)) ∧ ∃ g, recognise 19 s .RMK md = .ok (some g) := by
  simp only [ambiguous, List.mem_cons, List.not_mem_nil, or_false] at h
  rcases h with rfl | rfl | rfl | rfl | rfl <;> exact ⟨⟨_, rfl⟩, ⟨_, rfl⟩⟩

/-- C66. Whatever the order of trial, a text that some kind of group recognises is parsed as that
group; only the five texts in remarks are taken as obscurations although they could be phenomena in the
vicinity. -/
theorem C66_order_free (s : Str) (p : ReportPart) (md : ReportMetadata) (i : Nat) (g : Group)
    (h : recognise i s p md = .ok (some g)) (hx : ¬ (i = 19 ∧ p = .RMK ∧ s ∈ ambiguous)) :
    GroupParser.parse s p md = .ok g := by
  obtain ⟨x, hp, -⟩ := GroupParser.parse_ok s p md
  obtain ⟨h1, h2⟩ := GroupParser.parse_first hp
  have hi := GroupParser.recognise_index h
  have hle : x.index ≤ i := by
    by_contra hlt
    have := h1 i (by omega)
    rw [h] at this
    cases this
  rcases h2 with h2 | rfl
  · rcases C66_one_kind s p md md _ _ _ _ h h2 with e | ⟨rfl, hs, ⟨rfl, e⟩ | ⟨rfl, e⟩⟩
    · rw [← e, h] at h2
      rw [hp]
      exact congrArg _ (Option.some.inj (Except.ok.inj h2)).symm
    · omega
    · exact absurd ⟨rfl, rfl, hs⟩ hx
  · have := (recognise_shape h).1
    simp only [Group.index] at hle
    omega

/-- C66. A text is parsed as an unknown group only if no kind of group recognises it. -/
theorem C66_unknown (s : Str) (p : ReportPart) (md : ReportMetadata) :
    GroupParser.parse s p md = .ok (.unknown {}) ↔
      ∀ i g, recognise i s p md ≠ .ok (some g) := by
  obtain ⟨x, hp, -⟩ := GroupParser.parse_ok s p md
  obtain ⟨h1, h2⟩ := GroupParser.parse_first hp
  constructor
  · intro h i g hr
    rw [h] at hp
    obtain rfl := Except.ok.inj hp
    have := (recognise_shape hr).1
    rw [h1 i (by simp only [Group.index]; omega)] at hr
    cases hr
  · intro h
    rcases h2 with h2 | rfl
    · exact absurd h2 (h _ _)
    · exact hp

/-- C66. A text that has been recognised as one kind and is then tried again becomes the group of another
kind that recognises it, or unknown if there is none. -/
theorem C66_second_try (s : Str) (p : ReportPart) (md : ReportMetadata) (prev g0 x : Group)
    (h : recognise prev.index s p md = .ok (some g0)) :
    GroupParser.reparse s p md prev = .ok x ↔
      (∃ j, j ≠ prev.index ∧ recognise j s p md = .ok (some x)) ∨
      (x = .unknown {} ∧ ∀ j g, j ≠ prev.index → recognise j s p md ≠ .ok (some g)) := by
  obtain ⟨y, hy, -⟩ := GroupParser.reparse_ok s p md prev
  obtain ⟨h1, h2⟩ := GroupParser.reparse_first hy
  have key : ∀ j g, j ≠ prev.index → recognise j s p md = .ok (some g) → y = g := by
    intro j g hj hr
    rcases h2 with ⟨h2, hne⟩ | rfl
    · have e : j = y.index := by
        rcases C66_one_kind s p md md _ _ _ _ hr h2 with e | ⟨-, -, e⟩
        · exact e
        · rcases C66_one_kind s p md md _ _ _ _ hr h with e' | ⟨-, -, e'⟩
          · exact absurd e' hj
          · omega
      subst e
      rw [hr] at h2
      exact (Option.some.inj (Except.ok.inj h2)).symm
    · have := (recognise_shape hr).1
      rw [h1 j (by simp only [Group.index]; omega) hj] at hr
      cases hr
  constructor
  · intro hx
    rw [hy] at hx
    obtain rfl := Except.ok.inj hx
    rcases h2 with ⟨h2, hne⟩ | rfl
    · exact Or.inl ⟨_, hne, h2⟩
    · refine Or.inr ⟨rfl, fun j g hj hr => ?_⟩
      have := key j g hj hr
      subst this
      exact absurd (GroupParser.recognise_index hr) (by have := (recognise_shape hr).1; simp only [Group.index]; omega)
  · rintro (⟨j, hj, hr⟩ | ⟨rfl, hn⟩)
    · rw [hy, key j x hj hr]
    · rcases h2 with ⟨h2, hne⟩ | rfl
      · exact absurd h2 (hn _ _ hne)
      · exact hy

/-- C66. Except for the five texts in remarks the second try gives an unknown group. -/
theorem C66_second_unknown (s : Str) (p : ReportPart) (md : ReportMetadata) (prev g0 : Group)
    (h : recognise prev.index s p md = .ok (some g0)) (hs : ¬ (p = .RMK ∧ s ∈ ambiguous)) :
    GroupParser.reparse s p md prev = .ok (.unknown {}) := by
  refine (C66_second_try s p md prev g0 _ h).mpr (Or.inr ⟨rfl, fun j g hj hr => ?_⟩)
  rcases C66_one_kind s p md md _ _ _ _ hr h with e | ⟨h1, h2, -⟩
  · exact hj e
  · exact hs ⟨h1, h2⟩

end

end Metaf.Props

namespace Metaf.Props

attribute [local instance] exactFloat

open Metaf.Spec

/-- A text which is recognised, and only as pressure. -/
example : recognise 9 c!"Q1013" .METAR {} =
      .ok (some (.pressure ⟨.OBSERVED_QNH, ⟨some 1013, .HECTOPASCAL⟩, false⟩)) ∧
    GroupParser.parse c!"Q1013" .METAR {} = .ok (.pressure ⟨.OBSERVED_QNH, ⟨some 1013, .HECTOPASCAL⟩, false⟩) := by
  have h : recognise 9 c!"Q1013" .METAR {} =
      .ok (some (.pressure ⟨.OBSERVED_QNH, ⟨some 1013, .HECTOPASCAL⟩, false⟩)) := by kernel_rfl
  exact ⟨h, C66_order_free _ _ _ 9 _ h (by decide)⟩

/-- `FG` in remarks is taken as obscuration. -/
example : GroupParser.parse c!"FG" .RMK {} =
    .ok (.cloud { tp := .OBSCURATION, incompleteText := .OBSCURATION, cldTp := { tp := .FOG } }) :=
  C66_order_free _ _ _ 6 _ rfl (by decide)

/-- No kind of group recognises this text. -/
example : GroupParser.parse c!"Q10133" .METAR {} = .ok (.unknown {}) := by kernel_rfl

/-- `FG` in remarks, first taken as obscuration, is on the second try a phenomenon in the vicinity. -/
example : ∃ c v, recognise (Group.cloud c).index c!"FG" .RMK {} = .ok (some (.cloud c)) ∧
    GroupParser.reparse c!"FG" .RMK {} (.cloud c) = .ok (.vicinity v) := by
  have h6 : ∃ c, recognise 6 c!"FG" .RMK {} = .ok (some (.cloud c)) := ⟨_, rfl⟩
  have h19 : ∃ v, recognise 19 c!"FG" .RMK {} = .ok (some (.vicinity v)) := ⟨_, rfl⟩
  obtain ⟨c, hc⟩ := h6
  obtain ⟨v, hv⟩ := h19
  exact ⟨c, v, hc, (C66_second_try _ _ _ (.cloud c) _ _ hc).mpr (Or.inl ⟨19, by simp [Group.index], hv⟩)⟩

/-- `PRES` in remarks, if `MISG` does not follow, is unknown. -/
example : GroupParser.reparse c!"PRES" .RMK {} (.pressure {}) = .ok (.unknown {}) :=
  C66_second_unknown _ _ _ (.pressure {}) _ (rfl : recognise 9 c!"PRES" .RMK {} = .ok (some _)) (by decide)

end Metaf.Props

import Verif.Spec.Recognise
import Verif.Proofs.NoFault

/-!
`GroupParser::parse` and `GroupParser::reparse` take the first recogniser that succeeds.
-/

set_option linter.unusedSectionVars false

namespace Metaf

variable [FloatSem]

open Spec

namespace GroupParser

/-- The alternatives from the `k`-th one on are the recognisers in order. -/
def InOrder : Nat → List (Nat × Alternative) → Prop
  | k, [] => k = 21
  | k, (i, f) :: l => i = k ∧ k < 21 ∧ (∀ s p md, f s p md = recognise k s p md) ∧ InOrder (k + 1) l

theorem alternatives_inOrder : InOrder 0 alternatives := by
  unfold alternatives
  repeat' first
    | exact rfl
    | refine ⟨rfl, by decide, fun _ _ _ => rfl, ?_⟩

theorem recognise_index {i : Nat} {s : Str} {p : ReportPart} {md : ReportMetadata} {g : Group}
    (h : recognise i s p md = .ok (some g)) : g.index = i := by
  unfold recognise at h
  split at h
  all_goals first
    | (injection h with h
       simp only [Option.map_eq_some_iff] at h
       obtain ⟨a, _, rfl⟩ := h
       rfl)
    | (split at h
       · simp at h
       · injection h with h
         simp only [Option.map_eq_some_iff] at h
         obtain ⟨a, _, rfl⟩ := h
         rfl)
    | simp at h

theorem parseAlternative_first {s : Str} {p : ReportPart} {md : ReportMetadata} {g : Group} :
    ∀ (l : List (Nat × Alternative)) (k : Nat), InOrder k l →
      parseAlternative s p md l = .ok g →
      k ≤ g.index ∧ (∀ i, k ≤ i → i < g.index → recognise i s p md = .ok none) ∧
      (recognise g.index s p md = .ok (some g) ∨ g = .unknown {}) := by
  intro l
  induction l with
  | nil =>
    intro k hk h
    simp only [parseAlternative, Except.ok.injEq] at h
    simp only [InOrder] at hk
    subst h hk
    exact ⟨by decide, fun i h1 h2 => by simp only [Group.index] at h2; omega, Or.inr rfl⟩
  | cons x l ih =>
    obtain ⟨i, f⟩ := x
    intro k hk h
    obtain ⟨rfl, hlt, hf, hl⟩ := hk
    simp only [parseAlternative, hf] at h
    split at h
    · simp at h
    · rename_i g' hg'
      injection h with h
      subst h
      have := recognise_index hg'
      exact ⟨by omega, fun j h1 h2 => by omega, Or.inl (by rw [this]; exact hg')⟩
    · rename_i hn
      obtain ⟨h1, h2, h3⟩ := ih _ hl h
      refine ⟨by omega, fun j hj1 hj2 => ?_, h3⟩
      by_cases hji : j = i
      · rw [hji]; exact hn
      · exact h2 j (by omega) hj2

theorem reparseAlternative_first {s : Str} {p : ReportPart} {md : ReportMetadata} {g : Group}
    {ig : Nat} :
    ∀ (l : List (Nat × Alternative)) (k : Nat), InOrder k l →
      reparseAlternative s p md ig l = .ok g →
      k ≤ g.index ∧ (∀ i, k ≤ i → i < g.index → i ≠ ig → recognise i s p md = .ok none) ∧
      ((recognise g.index s p md = .ok (some g) ∧ g.index ≠ ig) ∨ g = .unknown {}) := by
  intro l
  induction l with
  | nil =>
    intro k hk h
    simp only [reparseAlternative, Except.ok.injEq] at h
    simp only [InOrder] at hk
    subst h hk
    exact ⟨by decide, fun i h1 h2 => by simp only [Group.index] at h2; omega, Or.inr rfl⟩
  | cons x l ih =>
    obtain ⟨i, f⟩ := x
    intro k hk h
    obtain ⟨rfl, hlt, hf, hl⟩ := hk
    simp only [reparseAlternative, hf] at h
    split at h
    · rename_i hig
      split at h
      · simp at h
      · rename_i g' hg'
        injection h with h
        subst h
        have := recognise_index hg'
        exact ⟨by omega, fun j h1 h2 => by omega, Or.inl ⟨by rw [this]; exact hg', by omega⟩⟩
      · rename_i hn
        obtain ⟨h1, h2, h3⟩ := ih _ hl h
        refine ⟨by omega, fun j hj1 hj2 hj3 => ?_, h3⟩
        by_cases hji : j = i
        · rw [hji]; exact hn
        · exact h2 j (by omega) hj2 hj3
    · obtain ⟨h1, h2, h3⟩ := ih _ hl h
      exact ⟨by omega, fun j hj1 hj2 hj3 => h2 j (by omega) hj2 hj3, h3⟩

theorem parse_first {s : Str} {p : ReportPart} {md : ReportMetadata} {g : Group}
    (h : parse s p md = .ok g) :
    (∀ i, i < g.index → recognise i s p md = .ok none) ∧
      (recognise g.index s p md = .ok (some g) ∨ g = .unknown {}) := by
  obtain ⟨-, h2, h3⟩ := parseAlternative_first _ 0 alternatives_inOrder h
  exact ⟨fun i hi => h2 i (Nat.zero_le _) hi, h3⟩

theorem reparse_first {s : Str} {p : ReportPart} {md : ReportMetadata} {g prev : Group}
    (h : reparse s p md prev = .ok g) :
    (∀ i, i < g.index → i ≠ prev.index → recognise i s p md = .ok none) ∧
      ((recognise g.index s p md = .ok (some g) ∧ g.index ≠ prev.index) ∨ g = .unknown {}) := by
  obtain ⟨-, h2, h3⟩ := reparseAlternative_first _ 0 alternatives_inOrder h
  exact ⟨fun i hi => h2 i (Nat.zero_le _) hi, h3⟩

end GroupParser

end Metaf

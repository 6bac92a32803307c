import Verif.Props.Grammar
import Verif.Props.Reparse
import Verif.Ieee

/-!
C04: the text of a result with an error ends with the group of the report at which the error is raised.
-/

set_option linter.unusedSectionVars false

namespace Metaf.Props

open Metaf Metaf.Spec

variable [FloatIeee]

/-- An entry without text is followed by one with text, so a result with groups has text. -/
theorem some_text {report : Str} {limit : Nat} {r : ParseResult} (hr : Result report limit r) (h : r.groups ≠ []) :
    r.groups.flatMap (fun gi => words gi.rawString) ≠ [] := by
  obtain ⟨-, -, -, h3, -⟩ := C04_no_text_lost report limit _ r (groups_tokens report) hr
  intro hw
  have empty : ∀ x ∈ r.groups, x.rawString = [] := by
    intro x hx
    rw [← h3 x hx, List.flatMap_eq_nil_iff.mp hw x hx]
    rfl
  obtain ⟨a, l, e⟩ := List.exists_cons_of_ne_nil h
  obtain ⟨-, b, l3, u, rfl, -, hb⟩ := C07_empty_text_partial report limit r hr [] l a e (empty a (by simp [e]))
  exact hb (empty b (by simp [e]))

/-- C04. If an error is raised at a group of the report, then the text of the result ends with this group: the words
before it give no such error, and whatever follows it the result is the same. -/
theorem C04_offending_group (report : Str) (limit : Nat) (ts : List Str) (r : ParseResult) (hg : Groups report ts)
    (hr : Result report limit r) (he : RaisedAtGroup r.reportMetadata.error) :
    ∃ us w vs, ts = us ++ w :: vs ∧ r.groups.flatMap (fun gi => words gi.rawString) = us ++ [w] ∧
      (∀ s r', Groups s us → Result s limit r' → ¬ RaisedAtGroup r'.reportMetadata.error) ∧
      (∀ s vs', Groups s (us ++ w :: vs') → Result s limit r) := by
  obtain ⟨k, h1, -, h3, h4⟩ := C04_no_text_lost report limit ts r hg hr
  have hne : r.groups ≠ [] := by
    intro h
    have herr := C10_errors report limit r hr
    have hbig := (C05_group_limit report limit ts r hg hr).2.1
    revert he herr hbig
    cases r.reportMetadata.error <;> intro he herr hbig
    · exact he.1 rfl
    · exact he.2.1 rfl
    all_goals first
      | exact (hbig rfl).1 (h4.mpr h)
      | exact he.2.2 rfl
      | (obtain ⟨pre, x, post, e, -⟩ := herr
         rw [h] at e
         cases pre <;> cases e)
  have hw := some_text hr hne
  obtain ⟨us, w, e⟩ : ∃ us w, r.groups.flatMap (fun gi => words gi.rawString) = us ++ [w] :=
    ⟨_, _, (List.dropLast_append_getLast hw).symm⟩
  have hts : ts = us ++ w :: ts.drop k := by
    conv_lhs => rw [← List.take_append_drop k ts, ← h1, e, List.append_assoc]
    rfl
  have htok : ∀ t ∈ us ++ [w], t ∈ tokens report := by
    intro t ht
    rw [tokens_of_groups hg, hts]
    rcases List.mem_append.mp ht with ht | ht
    · exact List.mem_append_left _ ht
    · rw [List.mem_singleton.mp ht]
      simp
  -- the raw strings are a text with these words and this result
  have hraw : tokens (unwords (r.groups.map (·.rawString))) = us ++ [w] := by
    have one : ∀ x ∈ r.groups, tokens x.rawString = words x.rawString ∧ ∀ c ∈ x.rawString, c ≠ '=' := by
      intro x hx
      have hm : ∀ t ∈ words x.rawString, t ∈ tokens report := fun t ht =>
        htok t (by rw [← e]; exact List.mem_flatMap.mpr ⟨x, hx, ht⟩)
      have hc : ∀ t ∈ words x.rawString, ∀ c ∈ t, c ≠ '=' := fun t ht c hc => (tokens_chars (hm t ht) c hc).2
      constructor
      · conv_lhs => rw [← h3 x hx]
        rw [tokens_unwords _ hc]
        have : ∀ l : List Str, (∀ t ∈ l, tokens t = [t]) → l.flatMap tokens = l := by
          intro l hl
          induction l with
          | nil => rfl
          | cons a l ih =>
            rw [List.flatMap_cons, hl a (by simp), ih fun t ht => hl t (by simp [ht])]
            rfl
        exact this _ fun t ht => tokens_token (hm t ht)
      · intro c hcm
        rw [← h3 x hx] at hcm
        rcases mem_unwords _ _ hcm with rfl | ⟨t, ht, hct⟩
        · decide
        · exact hc t ht c hct
    rw [tokens_unwords, List.flatMap_map, ← e]
    · exact List.flatMap_congr fun x hx => (one x hx).1
    · intro t ht
      obtain ⟨x, hx, rfl⟩ := List.mem_map.mp ht
      exact (one x hx).2
  have hgraw : Groups (unwords (r.groups.map (·.rawString))) (us ++ [w]) := by
    rw [← hraw]
    exact groups_tokens _
  have hres := C65_reparse report limit r hr
  refine ⟨us, w, ts.drop k, hts, e, ?_, ?_⟩
  · intro s r' hs hr' he'
    have h := C17_error_freezes s _ limit us [w] r' hs hgraw hr' he'
    unfold Result at h hres
    rw [h] at hres
    injection hres with hres
    subst hres
    obtain ⟨k', h1', -⟩ := C04_no_text_lost s limit us r' hs hr'
    have := congrArg List.length (h1'.symm.trans e)
    rw [List.length_take, List.length_append, List.length_singleton] at this
    omega
  · intro s vs' hs
    refine C17_error_freezes _ s limit (us ++ [w]) vs' r hgraw ?_ hres he
    rw [List.append_assoc]
    exact hs

end Metaf.Props

namespace Metaf.Props

open Metaf Metaf.Spec

section
attribute [local instance] ieee

/-- In `METAR ZZZZ NOTIME 00000KT` it is `NOTIME`. -/
example : ∃ r, Result c!"METAR ZZZZ NOTIME 00000KT" 200 r ∧ RaisedAtGroup r.reportMetadata.error ∧
    r.groups.flatMap (fun gi => words gi.rawString) = [c!"METAR", c!"ZZZZ"] ++ [c!"NOTIME"] := by
  refine ⟨{ reportMetadata := _, groups := _ }, rfl, ?_⟩
  unfold RaisedAtGroup
  decide +kernel

end

end Metaf.Props

import Verif.Proofs.ParserResult
import Verif.Proofs.ParserWords
import Verif.Props.Text

/-!
Properties C08 to C12, C16, C19 and C20: the parts, the grammar and the type of a report, and the
order of recognition.
-/

set_option linter.unusedSectionVars false

namespace Metaf.Props

variable [FloatSem]

open Metaf.Parser Metaf.Spec

/-! ### C08 -/

/-- C08. The first group is in the header and every other group is in the part due after the group
before it. -/
theorem C08_parts_in_order (report : Str) (limit : Nat) (r : ParseResult)
    (hr : Result report limit r) : PartsInOrder r.groups := by
  obtain ⟨v, gs, hf⟩ := result_facts hr
  rw [hf.groups]
  exact partsInOrder_of hf.parts

/-- C08. No group stands in a part it does not belong to. -/
theorem C08_allowed (report : Str) (limit : Nat) (r : ParseResult)
    (hr : Result report limit r) : ∀ gi ∈ r.groups, Allowed gi.reportPart (elementOf gi.group) := by
  obtain ⟨v, gs, hf⟩ := result_facts hr
  intro gi hgi
  rw [hf.groups] at hgi
  exact allowed_of_entryOk (hf.entries gi (by simpa using hgi))

theorem chain_unknown {x : GroupInfo} {l : List GroupInfo} (h : PartsInOrder.Chain x l)
    (hx : x.reportPart = .UNKNOWN) : l.map (·.reportPart) = List.replicate l.length .UNKNOWN := by
  induction l generalizing x with
  | nil => rfl
  | cons y l ih =>
    obtain ⟨h1, h2⟩ := h
    have hy : y.reportPart = .UNKNOWN := by
      rw [hx] at h1
      revert h1
      cases elementOf x.group <;> simp [NextPart]
    simp only [List.map_cons, List.length_cons, List.replicate_succ, ih h2 hy, hy]

theorem chain_rmk {x : GroupInfo} {l : List GroupInfo} (h : PartsInOrder.Chain x l)
    (hx : x.reportPart = .RMK) : l.map (·.reportPart) = List.replicate l.length .RMK := by
  induction l generalizing x with
  | nil => rfl
  | cons y l ih =>
    obtain ⟨h1, h2⟩ := h
    have hy : y.reportPart = .RMK := by
      rw [hx] at h1
      revert h1
      cases elementOf x.group <;> simp [NextPart]
    simp only [List.map_cons, List.length_cons, List.replicate_succ, ih h2 hy, hy]

theorem chain_body {x : GroupInfo} {l : List GroupInfo} {q : ReportPart}
    (h : PartsInOrder.Chain x l) (hx : x.reportPart = q) (hq : q = .METAR ∨ q = .TAF) :
    ∃ b n t, (t = .RMK ∨ t = .UNKNOWN) ∧
      l.map (·.reportPart) = List.replicate b q ++ List.replicate n t := by
  induction l generalizing x with
  | nil => exact ⟨0, 0, .RMK, Or.inl rfl, rfl⟩
  | cons y l ih =>
    obtain ⟨h1, h2⟩ := h
    have hy : y.reportPart = q ∨ y.reportPart = .RMK ∨ y.reportPart = .UNKNOWN := by
      rw [hx] at h1
      revert h1
      rcases hq with rfl | rfl <;> cases elementOf x.group <;> simp +contextual [NextPart]
    rcases hy with hy | hy | hy
    · obtain ⟨b, n, t, ht, hl⟩ := ih h2 hy
      exact ⟨b + 1, n, t, ht, by simp [hl, hy, List.replicate_succ]⟩
    · exact ⟨0, l.length + 1, .RMK, Or.inl rfl, by
        simp [chain_rmk h2 hy, hy, List.replicate_succ]⟩
    · exact ⟨0, l.length + 1, .UNKNOWN, Or.inr rfl, by
        simp [chain_unknown h2 hy, hy, List.replicate_succ]⟩

theorem chain_header {x : GroupInfo} {l : List GroupInfo} (h : PartsInOrder.Chain x l)
    (hx : x.reportPart = .HEADER) :
    ∃ a b n q t, (q = .METAR ∨ q = .TAF) ∧ (t = .RMK ∨ t = .UNKNOWN) ∧
      l.map (·.reportPart) =
        List.replicate a .HEADER ++ List.replicate b q ++ List.replicate n t := by
  induction l generalizing x with
  | nil => exact ⟨0, 0, 0, .METAR, .RMK, Or.inl rfl, Or.inl rfl, rfl⟩
  | cons y l ih =>
    obtain ⟨h1, h2⟩ := h
    have hy : y.reportPart = .HEADER ∨ y.reportPart = .METAR ∨ y.reportPart = .TAF ∨
        y.reportPart = .UNKNOWN := by
      rw [hx] at h1
      revert h1
      cases elementOf x.group <;> simp +contextual [NextPart] <;> (intro h; rcases h with h | h <;> simp [h])
    rcases hy with hy | hy | hy | hy
    · obtain ⟨a, b, n, q, t, hq, ht, hl⟩ := ih h2 hy
      exact ⟨a + 1, b, n, q, t, hq, ht, by simp [hl, hy, List.replicate_succ]⟩
    · obtain ⟨b, n, t, ht, hl⟩ := chain_body h2 hy (Or.inl rfl)
      exact ⟨0, b + 1, n, .METAR, t, Or.inl rfl, ht, by simp [hl, hy, List.replicate_succ]⟩
    · obtain ⟨b, n, t, ht, hl⟩ := chain_body h2 hy (Or.inr rfl)
      exact ⟨0, b + 1, n, .TAF, t, Or.inr rfl, ht, by simp [hl, hy, List.replicate_succ]⟩
    · exact ⟨0, 0, l.length + 1, .METAR, .UNKNOWN, Or.inl rfl, Or.inr rfl, by
        simp [chain_unknown h2 hy, hy, List.replicate_succ]⟩

/-- C08 as a whole: header, then one kind of body, then either remarks or, after NIL or CNL, groups
which belong to no part. -/
theorem C08_parts (report : Str) (limit : Nat) (r : ParseResult) (hr : Result report limit r) :
    ∃ a b n body tail, (body = .METAR ∨ body = .TAF) ∧ (tail = .RMK ∨ tail = .UNKNOWN) ∧
      (r.groups ≠ [] → 0 < a) ∧
      r.groups.map (·.reportPart) =
        List.replicate a .HEADER ++ List.replicate b body ++ List.replicate n tail := by
  have h := C08_parts_in_order report limit r hr
  cases hg : r.groups with
  | nil => exact ⟨0, 0, 0, .METAR, .RMK, Or.inl rfl, Or.inl rfl, by simp, rfl⟩
  | cons x l =>
    rw [hg] at h
    have hx : x.reportPart = .HEADER ∧ PartsInOrder.Chain x l := by
      cases l with
      | nil => exact ⟨h, trivial⟩
      | cons y l => exact h
    obtain ⟨a, b, n, q, t, hq, ht, hl⟩ := chain_header hx.2 hx.1
    exact ⟨a + 1, b, n, q, t, hq, ht, by simp, by simp [hl, hx.1, List.replicate_succ]⟩

section
attribute [local instance] exactFloat

example : ∃ r : ParseResult, Result c!"TAF ZZZZ 041115Z 0412/0512 CAVOK RMK XXX" 200 r ∧
    r.groups.map (·.reportPart) = [.HEADER, .HEADER, .HEADER, .HEADER, .TAF, .TAF, .RMK] := by
  refine ⟨{ reportMetadata := _, groups := _ }, rfl, ?_⟩
  decide +kernel

example : ∃ r : ParseResult, Result c!"METAR ZZZZ NIL XXX" 200 r ∧
    r.groups.map (·.reportPart) = [.HEADER, .HEADER, .HEADER, .UNKNOWN] := by
  refine ⟨{ reportMetadata := _, groups := _ }, rfl, ?_⟩
  decide +kernel

end

/-! ### C10 -/

theorem error_eq {r : ParseResult} {v : Vars} {gs : List GroupInfo} (hf : ResultFacts r v gs) :
    r.reportMetadata.error = v.status.finalTransition.reportError ∧
    r.reportMetadata.type = v.status.reportType := by
  rw [hf.metadata]
  exact ⟨rfl, (finalTransition_error hf.status).2⟩

/-- C10. A report whose groups follow the grammar is accepted and has the type given by the grammar,
and every accepted report follows the grammar. The grammar does not know the limit. -/
theorem C10_grammar (report : Str) (limit : Nat) (r : ParseResult) (hr : Result report limit r)
    (hl : r.reportMetadata.error ≠ .REPORT_TOO_LARGE) (t : ReportType) :
    r.reportMetadata.error = .NONE ∧ r.reportMetadata.type = t ↔ Report t (elements r.groups) := by
  obtain ⟨v, gs, hf⟩ := result_facts hr
  obtain ⟨he, ht⟩ := error_eq hf
  rw [he, ht]
  have hne : v.status.reportError ≠ .REPORT_TOO_LARGE := by
    intro h
    rcases (finalTransition_error hf.status).1 with h1 | h1
    · exact hl (by rw [he, h1, h])
    · rw [h] at h1; simp at h1
  have hv := hf.verdict hne
  constructor
  · rintro ⟨h1, rfl⟩
    rw [← hv] at h1 ⊢
    exact Grammar.report_of_verdict h1
  · intro h
    have := Grammar.verdict_report h
    rw [hv] at this
    rw [this.1]
    exact this.2

/-- C10. In accepted reports body and remarks hold no group of another part. -/
theorem C10_accepted (report : Str) (limit : Nat) (r : ParseResult) (hr : Result report limit r)
    (he : r.reportMetadata.error = .NONE) :
    Accepted r.reportMetadata.type (elements r.groups) := by
  have hrep := (C10_grammar report limit r hr (by rw [he]; simp) _).mp ⟨he, rfl⟩
  obtain ⟨v, gs, hf⟩ := result_facts hr
  refine accepted_of_report hrep (hf.placed ?_)
  rw [(error_eq hf).1] at he
  rcases (finalTransition_error hf.status).1 with h1 | h1
  · rw [← h1, he]
  · exact h1.1

/-- C10. What each error means: an empty report, the beginning of a report, or a first group with
which no report can go on, for the documented reason. -/
theorem C10_errors (report : Str) (limit : Nat) (r : ParseResult) (hr : Result report limit r) :
    match r.reportMetadata.error with
    | .NONE => Report r.reportMetadata.type (elements r.groups)
    | .EMPTY_REPORT => r.groups = []
    | .UNEXPECTED_REPORT_END => r.groups ≠ [] ∧ Viable (elements r.groups) ∧
        ¬ ∃ t, Report t (elements r.groups)
    | .REPORT_TOO_LARGE => True
    | e => ∃ pre x post, elements r.groups = pre ++ x :: post ∧ Viable pre ∧ ¬ Viable (pre ++ [x]) ∧
        Reason e pre x := by
  have hgr := C10_grammar report limit r hr
  obtain ⟨v, gs, hf⟩ := result_facts hr
  obtain ⟨he, ht⟩ := error_eq hf
  by_cases hl : v.status.reportError = .REPORT_TOO_LARGE
  · have : r.reportMetadata.error = .REPORT_TOO_LARGE := by
      rw [he]
      rcases (finalTransition_error hf.status).1 with h1 | h1
      · rw [h1, hl]
      · rw [hl] at h1; simp at h1
    rw [this]
    trivial
  · have hv := hf.verdict hl
    have h := Grammar.verdict_outcome (elements r.groups)
    rw [hv] at h
    rw [he, ht]
    revert h
    cases v.status.finalTransition.reportError <;> simp only [imp_self, implies_true, elements,
      List.map_eq_nil_iff, ne_eq]

section
attribute [local instance] exactFloat

example : ∃ r : ParseResult, Result c!"METAR AMD ZZZZ 041115Z" 200 r ∧
    r.reportMetadata.error = .AMD_ALLOWED_IN_TAF_ONLY := by
  refine ⟨{ reportMetadata := _, groups := _ }, rfl, ?_⟩
  decide +kernel

example : ∃ r : ParseResult, Result c!"TAF ZZZZ 041115Z 0412/0512 CAVOK" 200 r ∧
    r.reportMetadata.error = .NONE ∧ r.reportMetadata.type = .TAF := by
  refine ⟨{ reportMetadata := _, groups := _ }, rfl, ?_⟩
  decide +kernel

end

end Metaf.Props

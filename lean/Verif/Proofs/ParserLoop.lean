import Verif.Proofs.Tokens

/-!
`Parser.parse` as a fold over the groups of the report.
-/

namespace Metaf

set_option linter.unusedSectionVars false

variable [FloatSem]

namespace Parser

/-- One pass through the inner loop leaves the state that requires a second pass. -/
theorem transition_repeat {st : Status} {g : SyntaxGroup}
    (h : st.state = .REPORT_BODY_BEGIN_METAR_REPEAT_PARSE) :
    (st.transition g).state ≠ .REPORT_BODY_BEGIN_METAR_REPEAT_PARSE := by
  obtain ⟨s, t, e⟩ := st
  simp only at h
  subst h
  cases g <;> simp [Status.transition, Status.transitionFromReportBodyBeginMetar, Status.setState,
    Status.setError]

theorem countGroup_state_repeat {v : Vars} {limit : Nat}
    (h : v.status.state ≠ .REPORT_BODY_BEGIN_METAR_REPEAT_PARSE) :
    (countGroup v limit).status.isReparseRequired = false := by
  simp only [countGroup, Status.isReparseRequired]
  split
  · simp [Status.setError]
  · simpa using h

/-- A pass that starts in the repeat state is the last one. -/
theorem parseGroup_once {limit : Nat} {tok : Str} {v : Vars}
    (h : v.status.state = .REPORT_BODY_BEGIN_METAR_REPEAT_PARSE) (n : Nat) :
    parseGroup limit tok (n + 1) v = parseGroup limit tok 1 v := by
  simp only [parseGroup]
  cases GroupParser.parse tok v.status.getReportPart v.md with
  | error f => rfl
  | ok g =>
    simp only
    rw [countGroup_state_repeat (v := { v with status := v.status.transition (getSyntaxGroup g) })
      (transition_repeat h)]
    simp

/-- The inner loop makes at most two passes. -/
theorem parseGroup_fuel {limit : Nat} {tok : Str} {v : Vars} (n : Nat) :
    parseGroup limit tok (n + 2) v = parseGroup limit tok 2 v := by
  rw [parseGroup, parseGroup]
  cases GroupParser.parse tok v.status.getReportPart v.md with
  | error f => rfl
  | ok g =>
    simp only
    split
    · rename_i h
      have h' : (countGroup { v with status := v.status.transition (getSyntaxGroup g) }
          limit).status.state = .REPORT_BODY_BEGIN_METAR_REPEAT_PARSE := by
        have := (Bool.and_eq_true_iff.mp h).1
        simpa [Status.isReparseRequired] using this
      rw [parseGroup_once h' n]
    · rfl

theorem step_fuel {limit : Nat} {tok : Str} {v : Vars} {n : Nat} (hn : 2 ≤ n) :
    step n limit tok v = step 2 limit tok v := by
  obtain ⟨m, rfl⟩ : ∃ m, n = m + 2 := ⟨n - 2, by omega⟩
  simp only [step]
  cases appendToLastResultGroup v.groups tok v.status.getReportPart v.md with
  | error f => rfl
  | ok r =>
    obtain ⟨gs, b⟩ := r
    cases b with
    | true => rfl
    | false => simp only [parseGroup_fuel]

/-- The processing of one group of the report. -/
def stepTok (limit : Nat) (tok : Str) (v : Vars) : Res Vars := step 2 limit tok v

/-- Processing of the groups of a report up to the first error. -/
def foldTokens (limit : Nat) : List Str → Vars → Res Vars
  | [], v => .ok v
  | t :: ts, v =>
    if v.status.isError then .ok v
    else
      match stepTok limit t v with
      | .error f => .error f
      | .ok v => foldTokens limit ts v

theorem foldTokens_error {limit : Nat} {v : Vars} (h : v.status.isError = true) :
    ∀ ts, foldTokens limit ts v = .ok v := by
  intro ts; cases ts <;> simp [foldTokens, h]

theorem foldTokens_append {limit : Nat} (ts us : List Str) : ∀ v,
    foldTokens limit (ts ++ us) v =
      match foldTokens limit ts v with
      | .error f => .error f
      | .ok v => foldTokens limit us v := by
  induction ts with
  | nil => intro v; rfl
  | cons t ts ih =>
    intro v
    simp only [List.cons_append, foldTokens]
    split
    · rename_i h; simp only [foldTokens_error h]
    · cases stepTok limit t v with
      | error f => rfl
      | ok v' => exact ih v'

theorem loop_spec {limit : Nat} : ∀ (n : Nat) (i : ReportInput) (v : Vars),
    i.rest.length + 1 ≤ n →
    loop limit n i.getNextGroup.1 i.getNextGroup.2 v = foldTokens limit i.tokens v := by
  intro n
  induction n with
  | zero => intro i v h; omega
  | succ n ih =>
    intro i v h
    rcases getNextGroup_spec i with ⟨ht, hg⟩ | ⟨t, ts, hne, ht, hg, hrest, hlen⟩
    · rw [ht, hg]; simp [loop, foldTokens]
    · rw [ht, hg]
      have hpos : 0 < t.length := List.length_pos_iff.mpr hne
      have he : t.isEmpty = false := by cases t <;> simp_all
      simp only [loop, foldTokens, he, Bool.false_or]
      split
      · rfl
      · rw [step_fuel (by omega), ← stepTok]
        cases stepTok limit t v with
        | error f => rfl
        | ok v' =>
          simp only
          rw [ih _ _ (by omega), hrest]

/-- `Parser.parse` processes the groups of the report from left to right and then finishes. -/
theorem parse_eq (report : Str) (limit : Nat) :
    parse report limit =
      match foldTokens limit (tokens report) {} with
      | .error f => .error f
      | .ok v => finish v := by
  have h := loop_spec (limit := limit) (report.length + 2) { rest := report } {}
    (by simp)
  simp only [parse, run]
  rw [h]
  rfl

end Parser

end Metaf

import Verif.Props.Outcome

/-!
C110: how the result depends on the limit on the number of groups.
-/

set_option linter.unusedSectionVars false

namespace Metaf.Props

open Metaf Metaf.Spec

variable [FloatIeee]

/-- The report has an outcome with every limit. -/
theorem outcome_of {s : Str} {ws : List Str} {limit : Nat} {r : ParseResult} (ht : Groups s ws)
    (hr : Result s limit r) : Outcome ws limit r.groups r.reportMetadata.type r.reportMetadata.error :=
  (C84_outcome ht).mp ⟨r, hr, rfl, rfl, rfl⟩

theorem result_of {s : Str} {ws : List Str} {limit : Nat} {gs : List GroupInfo} {ty : ReportType} {e : ReportError}
    {r : ParseResult} (ht : Groups s ws) (h : Outcome ws limit gs ty e) (hr : Result s limit r) :
    r.groups = gs ∧ r.reportMetadata.type = ty ∧ r.reportMetadata.error = e := by
  obtain ⟨r', hr', h1, h2, h3⟩ := (C84_outcome ht).mpr h
  rw [result_unique hr hr' rfl]
  exact ⟨h1, h2, h3⟩

theorem result_exists (s : Str) (limit : Nat) : ∃ r, Result s limit r := by
  obtain ⟨gs, ty, e, h⟩ := C84_exists (tokens s) limit
  exact ⟨_, C85_result (groups_tokens s) h⟩

/-- The first words of a report are the words of a report. -/
theorem groups_first {s : Str} {us rest : List Str} (h : tokens s = us ++ rest) : Groups (unwords us) us := by
  refine groups_unwords fun w hw => ?_
  have hm : w ∈ tokens s := by rw [h]; exact List.mem_append_left _ hw
  exact ⟨tokens_token hm, fun c hc => ((Parser.tok_of_mem hm).2 c hc).2⟩

/-- C110. A result which is not cut short by the limit is the result with every greater limit. -/
theorem C110_greater {s : Str} {a b : Nat} {r : ParseResult} (hab : a ≤ b) (hr : Result s a r)
    (he : r.reportMetadata.error ≠ .REPORT_TOO_LARGE) : Result s b r := by
  have ho := outcome_of (groups_tokens s) hr
  have key : Outcome (tokens s) b r.groups r.reportMetadata.type r.reportMetadata.error := by
    generalize r.groups = gs, r.reportMetadata.type = ty, r.reportMetadata.error = e at ho he
    cases ho with
    | within h hn => exact .within h (by omega)
    | tooLarge => exact absurd rfl he
    | third => exact absurd rfl he
  have := C85_result (groups_tokens s) key
  rwa [← C85_record hr] at this

/-- C110. The limit does not matter if it is greater than the number of words and one. -/
theorem C110_enough {s : Str} {ws : List Str} {a b : Nat} (hg : Groups s ws) (ha : ws.length + 1 < a)
    (hb : ws.length + 1 < b) (r : ParseResult) : Result s a r ↔ Result s b r := by
  have key : ∀ {a b : Nat}, ws.length + 1 < a → ws.length + 1 < b → Result s a r → Result s b r := by
    intro a b ha hb hr
    have small : ∀ {l : Nat} {r : ParseResult}, ws.length + 1 < l → Result s l r →
        r.reportMetadata.error ≠ .REPORT_TOO_LARGE := by
      intro l r hl hr he
      have := (C05_group_limit s l ws r hg hr).2.1 he
      omega
    rcases Nat.le_total a b with h | h
    · exact C110_greater h hr (small ha hr)
    · obtain ⟨r', hr'⟩ := result_exists s b
      rw [result_unique hr (C110_greater h hr' (small hb hr')) rfl]
      exact hr'
  exact ⟨key ha hb, key hb ha⟩

/-- The entries of a header which is followed by something. -/
theorem untyped_header {hs : Words} (h : Opening .time .UNKNOWN hs) :
    ∃ l t m, hs = [(l, .location ⟨l⟩), (m, .reportTime t)] ∧ Opening .location .UNKNOWN [(l, .location ⟨l⟩)] := by
  cases h with
  | time h _ _ _ _ =>
    cases h with
    | location hp h hl =>
      cases h with
      | start => exact ⟨_, _, _, rfl, .location (Or.inl rfl) .start hl⟩
      | cor h => cases h
      | location => rcases hp with h | h | h <;> cases h
      | time => rcases hp with h | h | h <;> cases h

/-- C110. The entries of a result with a limit are kept with every greater limit, just as C18 says of a
report with further text: an entry followed by two entries with text is the same, and an entry with text
followed by one entry with text is the same unless it is an unknown group, to which text may be added. -/
theorem C110_beginning {s : Str} {a b : Nat} {r r' : ParseResult} (hab : a ≤ b) (hr : Result s a r)
    (hr' : Result s b r') {i : Nat} {e : GroupInfo} (hi : r.groups[i]? = some e) :
    (2 ≤ textAfter r.groups i → r'.groups[i]? = some e) ∧
    (1 ≤ textAfter r.groups i → e.rawString ≠ [] →
      r'.groups[i]? = some e ∨
      ∃ u t, e.group = .unknown u ∧
        r'.groups[i]? = some { e with rawString := e.rawString ++ ' ' :: t }) := by
  have same : r.groups = r'.groups → (2 ≤ textAfter r.groups i → r'.groups[i]? = some e) ∧
    (1 ≤ textAfter r.groups i → e.rawString ≠ [] →
      r'.groups[i]? = some e ∨
      ∃ u t, e.group = .unknown u ∧
        r'.groups[i]? = some { e with rawString := e.rawString ++ ' ' :: t }) := by
    intro h
    rw [← h]
    exact ⟨fun _ => hi, fun _ _ => Or.inl hi⟩
  have hg := groups_tokens s
  have ho := outcome_of hg hr
  by_cases he : r.reportMetadata.error = .REPORT_TOO_LARGE
  swap
  · exact same (congrArg _ (result_unique (C110_greater hab hr he) hr' rfl))
  generalize hws : tokens s = ws at ho hg
  have low : ∀ {us rest : List Str} {r0 : ParseResult}, ws = us ++ rest → Result (unwords us) b r0 →
      r0.groups = r.groups → (2 ≤ textAfter r.groups i → r'.groups[i]? = some e) ∧
    (1 ≤ textAfter r.groups i → e.rawString ≠ [] →
      r'.groups[i]? = some e ∨
      ∃ u t, e.group = .unknown u ∧
        r'.groups[i]? = some { e with rawString := e.rawString ++ ' ' :: t }) := by
    intro us rest r0 hu h0 h1
    rw [← h1] at hi ⊢
    exact C18_earlier_groups_kept (unwords us) s b us rest r0 r' (groups_first (hws.trans hu)) (hu ▸ hg) h0 hr' i e hi
  rw [he] at ho
  generalize hgs : r.groups = gs, r.reportMetadata.type = ty at ho
  generalize hee : ReportError.REPORT_TOO_LARGE = e at ho
  cases ho with
  | within h hn =>
    have h' := C85_result hg (Outcome.within h (limit := b) (by omega))
    rw [← hgs]
    exact same (by rw [result_unique hr' h' rfl, hgs])
  | @tooLarge us rest n _ _ _ hu h hn =>
    rw [← hgs]
    by_cases hb : n < max b 1
    · exact low hu (C85_result (groups_first (hws.trans hu)) (.within h hb)) hgs.symm
    · refine same ?_
      rw [result_unique hr' (C85_result hg (.tooLarge (limit := b) hu h (by omega))) rfl, hgs]
  | @third hs w rest x hu ho hp hnil hx hl =>
    obtain ⟨l, t, m, rfl, h1⟩ := untyped_header ho
    have begins : b = 3 ∨ ∃ tail, r'.groups = headerEntries [(l, .location ⟨l⟩), (m, .reportTime t)] ++ tail := by
      have whole : ∀ {rest n gs ty e}, Meaning (l :: m :: w :: rest) n gs ty e →
          ∃ tail, gs = headerEntries [(l, .location ⟨l⟩), (m, .reportTime t)] ++ tail := by
        intro rest n gs ty e h
        obtain ⟨n', gs', e', hb⟩ := body_all (Or.inl rfl) (headerHour [(l, .location ⟨l⟩), (m, .reportTime t)]) (w :: rest)
        have hm := Meaning.untyped ho hp hnil hb
        exact ⟨gs', (C84_meaning_unique h hm).2.1⟩
      have o' := outcome_of hg hr'
      rw [hu] at o'
      generalize r'.groups = gs', r'.reportMetadata.type = ty', r'.reportMetadata.error = e' at o'
      cases o' with
      | within h hn => exact Or.inr (whole h)
      | @tooLarge us rest' n _ _ e'' hu' h hn =>
        right
        match us, hu', h with
        | [], _, h =>
          have := (C84_meaning_unique h .empty).1
          omega
        | [_], hu', h =>
          obtain ⟨rfl, -⟩ := List.cons.inj hu'
          have := (C84_meaning_unique h (.cut h1 (by simp))).1
          simp only [List.length_singleton] at this
          omega
        | [_, _], hu', h =>
          obtain ⟨rfl, h2⟩ := List.cons.inj hu'
          obtain ⟨rfl, -⟩ := List.cons.inj h2
          have := (C84_meaning_unique h (.cut ho (by simp))).1
          simp only [List.length_cons, List.length_nil] at this
          omega
        | a :: a' :: a'' :: us, hu', h =>
          obtain ⟨rfl, h2⟩ := List.cons.inj hu'
          obtain ⟨rfl, h3⟩ := List.cons.inj h2
          obtain ⟨rfl, -⟩ := List.cons.inj h3
          exact whole h
      | third _ _ _ _ _ hl => exact Or.inl hl
    rcases begins with rfl | ⟨tail, htail⟩
    · subst hl
      rw [← hgs]
      exact same (by rw [result_unique hr hr' rfl])
    · rw [hgs] at hi
      rw [htail]
      match i, hi with
      | 0, hi => exact ⟨fun _ => hi, fun _ _ => Or.inl hi⟩
      | 1, hi => exact ⟨fun _ => hi, fun _ _ => Or.inl hi⟩
      | 2, hi => exact ⟨fun h => absurd h (by simp [textAfter, headerEntries]), fun h => absurd h (by simp [textAfter, headerEntries])⟩
      | i + 3, hi => simp [headerEntries] at hi

section
attribute [local instance] exactFloat

/-- `METAR ULLI 112200Z 24005MPS NOSIG` has five words and is read in full with a limit of six. -/
example : ∃ r, Result c!"METAR ULLI 112200Z 24005MPS NOSIG" 6 r ∧ r.reportMetadata.error ≠ .REPORT_TOO_LARGE := by
  refine ⟨{ reportMetadata := _, groups := _ }, rfl, ?_⟩
  decide +kernel

/-- With a limit of four it is cut short; two entries follow the second one. -/
example : ∃ r e, Result c!"METAR ULLI 112200Z 24005MPS NOSIG" 4 r ∧
    r.reportMetadata.error = .REPORT_TOO_LARGE ∧ r.groups[1]? = some e ∧ 2 ≤ textAfter r.groups 1 := by
  refine ⟨{ reportMetadata := _, groups := _ }, _, rfl, ?_, rfl, ?_⟩ <;> decide +kernel

/-- Without the type of the report the limit of three ends the result with the third word in the header. -/
example : ∃ r r' e, Result c!"ULLI 112200Z 24005MPS NOSIG" 3 r ∧ Result c!"ULLI 112200Z 24005MPS NOSIG" 10 r' ∧
    r.reportMetadata.error = .REPORT_TOO_LARGE ∧ r.groups[1]? = some e ∧ 1 ≤ textAfter r.groups 1 ∧
    r.groups[2]? ≠ r'.groups[2]? := by
  refine ⟨{ reportMetadata := _, groups := _ }, { reportMetadata := _, groups := _ }, _, rfl, rfl, ?_, rfl, ?_, ?_⟩
  · decide +kernel
  · decide +kernel
  · intro h
    cases h

end

end Metaf.Props

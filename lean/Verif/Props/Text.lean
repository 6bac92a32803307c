import Verif.Proofs.ParserKeep

/-!
Properties C01 to C07, C17, C18 and C21: termination, the text of the report and the text of the
groups of the result.
-/

set_option linter.unusedSectionVars false

namespace Metaf.Props

variable [FloatSem]

open Metaf.Parser Metaf.Spec

/-! ### C01 -/

/-- C01. For every report and every group limit parsing ends with a result: from some number of
iterations on, the model of `Parser::parse` neither runs out of iterations nor reaches one of the
modelled kinds of undefined behaviour, and the result does not depend on that number. -/
theorem C01_parse_total (report : Str) (limit : Nat) :
    ∃ r : ParseResult, Parser.parse report limit = .ok r ∧
      ∀ fuel, report.length + 1 ≤ fuel → Parser.run fuel report limit = .ok r := by
  obtain ⟨v, done, gs, h1, h2, h3, h4, h5, h6⟩ := parse_spec report limit
  refine ⟨_, h6, fun fuel hf => ?_⟩
  rw [← h6, parse_eq]
  have h := loop_spec (limit := limit) fuel { rest := report } {} (by simpa using hf)
  simp only [run]
  rw [h]
  rfl

/-- The result of parsing, which exists by `C01_parse_total`. -/
def Result (report : Str) (limit : Nat) (r : ParseResult) : Prop :=
  Parser.parse report limit = .ok r

theorem result_unique {s s' : Str} {limit : Nat} {r r' : ParseResult} (h : Result s limit r)
    (h' : Result s' limit r') (he : Parser.parse s limit = Parser.parse s' limit) : r = r' := by
  unfold Result at h h'
  rw [he, h'] at h
  injection h with h
  exact h.symm

/-! ### C02 -/

theorem beforeEnd_append_eq (s t : Str) : beforeEnd (s ++ '=' :: t) = beforeEnd s := by
  induction s with
  | nil => simp [beforeEnd]
  | cons c s ih =>
    simp only [beforeEnd, List.cons_append, List.takeWhile_cons] at ih ⊢
    split
    · rw [ih]
    · rfl

/-- C02. The text from the report end indicator on has no effect. -/
theorem C02_report_end (s t : Str) (limit : Nat) :
    Parser.parse (s ++ c!"=" ++ t) limit = Parser.parse s limit := by
  have h : tokens (s ++ c!"=" ++ t) = tokens s := by
    unfold tokens
    rw [← tokensAux_beforeEnd, ← tokensAux_beforeEnd s]
    simp only [List.append_assoc, List.singleton_append]
    rw [beforeEnd_append_eq]
  rw [parse_eq, parse_eq, h]

/-- C02 in the form of the property: all three reports give the same result. -/
theorem C02_report_end_ignored (s t : Str) (limit : Nat) :
    Parser.parse (s ++ c!"=" ++ t) limit = Parser.parse (s ++ c!"=") limit ∧
    Parser.parse (s ++ c!"=") limit = Parser.parse s limit := by
  have h := C02_report_end s [] limit
  simp only [List.append_nil] at h
  exact ⟨by rw [C02_report_end, h], h⟩

/-! ### C03 -/

/-- C03. The result depends only on the groups of the report. -/
theorem C03_groups_only (s1 s2 : Str) (ts : List Str) (limit : Nat) (h1 : Groups s1 ts)
    (h2 : Groups s2 ts) : Parser.parse s1 limit = Parser.parse s2 limit := by
  rw [parse_eq, parse_eq, tokens_of_groups h1, tokens_of_groups h2]

/-- C03. Two texts made of the same words, separated by arbitrary runs of blanks and with arbitrary
blanks in front and behind, give the same result. The words may contain the end indicator. -/
theorem C03_layout (ws : List Str) (s1 s2 : Str) (limit : Nat) (h1 : Layout ws s1)
    (h2 : Layout ws s2) : Parser.parse s1 limit = Parser.parse s2 limit := by
  have key : ∀ {ws : List Str} {s : Str}, Layout ws s → ∀ {s' : Str}, Layout ws s' →
      tokens s = tokens s' := by
    intro ws s h
    induction h with
    | @nil s hb =>
      intro s' h'
      cases h' with
      | nil hb' =>
        have e1 := tokensAux_blanks hb []
        have e2 := tokensAux_blanks hb' []
        simp only [List.append_nil] at e1 e2
        simp only [tokens, e1, e2]
    | @cons lead w s ws hb hne hw hs hl ih =>
      intro s' h'
      cases h' with
      | @cons lead' _ s2 _ hb' _ _ hs2 hl2 =>
        simp only [tokens] at ih ⊢
        rw [tokensAux_blanks hb, tokensAux_blanks hb']
        -- the word, up to the end indicator if there is one
        have split : ∀ (u : Str) (cur : Str), (∀ c ∈ u, ¬ Blank c) → (cur ++ u ≠ []) →
            tokensAux cur (u ++ s) = tokensAux cur (u ++ s2) := by
          intro u
          induction u with
          | nil =>
            intro cur _ hc
            simp only [List.append_nil] at hc
            simp only [List.nil_append]
            rw [tokensAux_stop hc hs, tokensAux_stop hc hs2, ih hl2]
          | cons c u ihu =>
            intro cur hu _
            have hc : ReportInput.isDelim c = false := isDelim_false_iff.mpr (hu c (by simp))
            simp only [List.cons_append, tokensAux, hc, Bool.false_eq_true, if_false]
            split
            · rfl
            · split
              · congr 1
                cases u with
                | nil =>
                  simp only [List.nil_append]
                  exact ih hl2
                | cons d u => exact ihu [] (fun x hx => hu x (by simp [hx])) (by simp)
              · exact ihu _ (fun x hx => hu x (by simp [hx])) (by simp)
        exact split w [] hw (by simpa using hne)
  rw [parse_eq, parse_eq, key h1 h2]

/-- C03. Every report has such a decomposition into groups, and only one. -/
theorem C03_groups_exist (s : Str) : ∃ ts, Groups s ts ∧ ∀ ts', Groups s ts' → ts' = ts :=
  ⟨tokens s, groups_tokens s, fun _ h => (tokens_of_groups h).symm⟩

example : Layout [c!"METAR", c!"ZZZZ"] c!"  METAR\t\nZZZZ " := by
  refine Layout.cons (lead := c!"  ") (w := c!"METAR") (s := c!"\t\nZZZZ ") (by decide) (by decide)
    (by decide) (by decide) ?_
  refine Layout.cons (lead := c!"\t\n") (w := c!"ZZZZ") (s := c!" ") (by decide) (by decide)
    (by decide) (by decide) (.nil (by decide))

/-! ### C04 -/

/-- C04. The words of the raw strings, in order, are exactly the first groups of the report: all of
them when there is no error or only the end of the report is in error. Each raw string consists of
its words separated by single spaces. -/
theorem C04_no_text_lost (report : Str) (limit : Nat) (ts : List Str) (r : ParseResult)
    (hg : Groups report ts) (hr : Result report limit r) :
    ∃ k, r.groups.flatMap (fun gi => words gi.rawString) = ts.take k ∧
      (r.reportMetadata.error = .NONE ∨ r.reportMetadata.error = .EMPTY_REPORT ∨
        r.reportMetadata.error = .UNEXPECTED_REPORT_END → k = ts.length) ∧
      (∀ gi ∈ r.groups, unwords (words gi.rawString) = gi.rawString) ∧
      (ts = [] ↔ r.groups = []) := by
  obtain ⟨v, done, gs, h1, h2, h3, h4, h5, h6⟩ := parse_spec report limit
  rw [← tokens_of_groups hg]
  unfold Result at hr
  rw [h6] at hr
  injection hr with hr
  subst hr
  have ht : texts gs = done := by rw [h4.texts, h1.texts]; simp
  refine ⟨done.length, ?_, ?_, ?_, ?_⟩
  · rw [← List.prefix_iff_eq_take.mp h2]
    exact ht
  · intro he
    rcases h3 with h3 | h3
    · have hok := h1.statusOk
      have := (finalTransition_error hok).1
      simp only [finalMd] at he
      rw [isError_eq] at h3
      rcases this with this | this
      · rw [this] at he
        rcases he with he | he | he
        · exact absurd he h3
        · exact absurd he hok.2.1
        · exact absurd he hok.2.2.1
      · exact absurd this.1 h3
    · rw [h3]
  · intro gi hgi
    exact h4.joined h1.joined h1.neighbours h1.headText (by simp) gi (by simpa using hgi)
  · simp only [List.reverse_eq_nil_iff]
    constructor
    · intro hn
      rw [hn] at h2
      have hd : done = [] := by simpa using h2
      rw [hd] at h1
      generalize hl : ([] : List Str) = l at h1
      cases h1 with
      | start => cases h4; rfl
      | step => simp at hl
    · intro hn
      rw [hn] at ht
      have hd : done = [] := ht.symm
      rcases h3 with h3 | h3
      · rw [hd] at h1
        generalize hl : ([] : List Str) = l at h1
        cases h1 with
        | start => simp [Status.isError] at h3
        | step => simp at hl
      · rw [← h3]; exact hd

/-- C04. The raw strings hold exactly the non-blank characters of the report before its end, in
order, when there is no error. -/
theorem C04_characters (report : Str) (limit : Nat) (r : ParseResult)
    (hr : Result report limit r) (he : r.reportMetadata.error = .NONE) :
    (r.groups.flatMap (fun gi => words gi.rawString)).flatten =
      (beforeEnd report).filter (fun c => ¬ Blank c) := by
  obtain ⟨k, h1, h2, -, -⟩ := C04_no_text_lost report limit _ r (groups_tokens report) hr
  rw [h1, h2 (Or.inl he), List.take_length, tokens, tokensAux_flatten]
  simp

/-! ### C05 -/

/-- C05. The group limit: at most `max 1 limit` groups are processed; the error REPORT_TOO_LARGE is
given only to reports with at least `limit - 1` groups, and always to those which run into the
limit. -/
theorem C05_group_limit (report : Str) (limit : Nat) (ts : List Str) (r : ParseResult)
    (hg : Groups report ts) (hr : Result report limit r) :
    (r.groups.flatMap (fun gi => words gi.rawString)).length ≤ max 1 limit ∧
    (r.reportMetadata.error = .REPORT_TOO_LARGE → ts ≠ [] ∧ limit ≤ ts.length + 1) ∧
    (r.reportMetadata.error ≠ .REPORT_TOO_LARGE → ts ≠ [] →
      (r.groups.flatMap (fun gi => words gi.rawString)).length < limit) := by
  obtain ⟨v, done, gs, h1, h2, h3, h4, h5, h6⟩ := parse_spec report limit
  rw [← tokens_of_groups hg]
  unfold Result at hr
  rw [h6] at hr
  injection hr with hr
  subst hr
  have ht : texts gs = done := by rw [h4.texts, h1.texts]; simp
  have hl : (gs.reverse.flatMap (fun gi => words gi.rawString)) = done := ht
  simp only [hl]
  obtain ⟨c1, c2, c3, c4⟩ := h1.count
  have hle := h2.length_le
  have herr := (finalTransition_error h1.statusOk).1
  have hiff : (finalMd v).error = .REPORT_TOO_LARGE ↔ v.status.reportError = .REPORT_TOO_LARGE := by
    simp only [finalMd]
    rcases herr with h | ⟨h, h' | h'⟩
    · rw [h]
    · rw [h, h']; simp
    · rw [h, h']; simp
  refine ⟨h1.length_le, ?_, ?_⟩
  · intro he
    have := c4.mp (hiff.mp he)
    refine ⟨?_, by omega⟩
    intro hn
    rw [hn] at h2
    exact this.1 (by simpa using h2)
  · intro he hne
    have hd : done ≠ [] := by
      intro hd
      rcases h3 with h3 | h3
      · rw [hd] at h1
        generalize hl : ([] : List Str) = l at h1
        cases h1 with
        | start => simp [Status.isError] at h3
        | step => simp at hl
      · exact hne (by rw [← h3]; exact hd)
    have : ¬ limit ≤ v.groupCount := fun h => he (hiff.mpr (c4.mpr ⟨hd, h⟩))
    omega

/-- C05. The number of entries with text never exceeds the number of groups processed. -/
theorem C05_entries (report : Str) (limit : Nat) (r : ParseResult) (hr : Result report limit r) :
    (r.groups.filter (fun gi => gi.rawString ≠ [])).length ≤
        (r.groups.flatMap (fun gi => words gi.rawString)).length ∧
    (r.groups.filter (fun gi => gi.rawString ≠ [])).length ≤ max 1 limit := by
  have key : (r.groups.filter (fun gi => gi.rawString ≠ [])).length ≤
        (r.groups.flatMap (fun gi => words gi.rawString)).length := by
    obtain ⟨k, -, -, hj, -⟩ := C04_no_text_lost report limit _ r (groups_tokens report) hr
    revert hj
    generalize r.groups = gs
    induction gs with
    | nil => simp
    | cons g gs ih =>
      intro hj
      have ih := ih (fun gi h => hj gi (by simp [h]))
      simp only [List.filter_cons, List.flatMap_cons, List.length_append]
      split
      · rename_i hne
        have : words g.rawString ≠ [] :=
          words_ne_nil (by simpa using hne) (hj g (by simp))
        have := List.length_pos_iff.mpr this
        simp only [List.length_cons]
        omega
      · omega
  exact ⟨key, key.trans (C05_group_limit report limit _ r (groups_tokens report) hr).1⟩

section
attribute [local instance] exactFloat

/-- The limit is reached: three of four groups are processed. -/
example : ∃ r : ParseResult, Result c!"METAR ZZZZ 041115Z 00000KT" 3 r ∧
    r.reportMetadata.error = .REPORT_TOO_LARGE ∧
    r.groups.map (·.rawString) = [c!"METAR", c!"ZZZZ", c!"041115Z"] := by
  refine ⟨{ reportMetadata := _, groups := _ }, rfl, ?_⟩
  decide +kernel

/-- The number of entries, with and without text, may exceed the limit. -/
example : ∃ r : ParseResult, Result c!"METAR ZZZZ 041115Z 00000KT RMK FG AO2" 7 r ∧
    r.groups.length = 8 := by
  refine ⟨{ reportMetadata := _, groups := _ }, rfl, ?_⟩
  decide +kernel

end

/-! ### C06 -/

/-- C06. No two adjacent entries are unknown groups. -/
theorem C06_unknown_merged (report : Str) (limit : Nat) (r : ParseResult)
    (hr : Result report limit r) (l1 l2 : List GroupInfo) (a b : GroupInfo)
    (h : r.groups = l1 ++ a :: b :: l2) (ua : UnknownGroup) (ha : a.group = .unknown ua)
    (ub : UnknownGroup) : b.group ≠ .unknown ub := by
  obtain ⟨v, done, gs, h1, h2, h3, h4, h5, h6⟩ := parse_spec report limit
  unfold Result at hr
  rw [h6] at hr
  injection hr with hr
  subst hr
  have hc := h4.neighbours h1.inv h1.neighbours h1.headText
  have hc' : gs.reverse.IsChain (fun a b => Neighbours b a) := List.isChain_reverse.mpr hc
  have := List.isChain_iff_forall_rel_of_append_cons_cons.mp hc' h
  intro hb
  exact this.1 ⟨by simp [hb, Group.isFallback], by simp [ha, Group.isFallback]⟩

section
attribute [local instance] exactFloat

example : ∃ r : ParseResult, Result c!"METAR ZZZZ 041115Z XXX YYY 00000KT XYZ" 200 r ∧
    r.groups.map (·.rawString) =
      [c!"METAR", c!"ZZZZ", c!"041115Z", c!"XXX YYY", c!"00000KT", c!"XYZ"] := by
  refine ⟨{ reportMetadata := _, groups := _ }, rfl, ?_⟩
  decide +kernel

end

/-! ### C07 -/

/-- C07, part. The full property, that no entry has an empty raw string, is violated, see
`C07_violated`. What holds: an entry with an empty raw string is no unknown group and is followed
directly by an unknown group with text. -/
theorem C07_empty_text_partial (report : Str) (limit : Nat) (r : ParseResult)
    (hr : Result report limit r) (l1 l2 : List GroupInfo) (a : GroupInfo)
    (h : r.groups = l1 ++ a :: l2) (ha : a.rawString = []) :
    (∀ u, a.group ≠ .unknown u) ∧
    ∃ b l3 u, l2 = b :: l3 ∧ b.group = .unknown u ∧ b.rawString ≠ [] := by
  obtain ⟨v, done, gs, h1, h2, h3, h4, h5, h6⟩ := parse_spec report limit
  unfold Result at hr
  rw [h6] at hr
  injection hr with hr
  subst hr
  simp only at h
  have hh := h4.headText h1.headText
  have hc := h4.neighbours h1.inv h1.neighbours h1.headText
  have hc' : gs.reverse.IsChain (fun a b => Neighbours b a) := List.isChain_reverse.mpr hc
  cases l2 with
  | nil =>
    have : gs = a :: l1.reverse := by
      have := congrArg List.reverse h
      simpa using this
    exact absurd ha (hh a (by simp [this]))
  | cons b l3 =>
    have hn := List.isChain_iff_forall_rel_of_append_cons_cons.mp hc' h
    obtain ⟨hb, hb'⟩ := hn.2 ha
    refine ⟨fun u hu => hn.1 ⟨hb, by simp [hu, Group.isFallback]⟩, b, l3, ?_⟩
    cases hg : b.group with
    | unknown u => exact ⟨u, rfl, rfl, hb'⟩
    | _ => simp [hg, Group.isFallback] at hb

section
-- exact arithmetic, to evaluate the model
attribute [local instance] exactFloat

/-- C07 is violated: this report gives an entry without text. -/
theorem C07_violated :
    ∃ r : ParseResult,
      Result c!"METAR ZZZZ 041115Z 00000KT RMK FG FOO" 200 r ∧
      ∃ gi ∈ r.groups, gi.rawString = [] := by
  refine ⟨{ reportMetadata := _, groups := _ }, rfl, ?_⟩
  decide +kernel

end

/-! ### C17 -/

/-- The error was raised at a group of the report, not by its end. -/
def RaisedAtGroup (e : ReportError) : Prop :=
  e ≠ .NONE ∧ e ≠ .EMPTY_REPORT ∧ e ≠ .UNEXPECTED_REPORT_END

/-- C17. If parsing fails at a group then no further groups have any effect. -/
theorem C17_error_freezes (s s' : Str) (limit : Nat) (ts us : List Str) (r : ParseResult)
    (hs : Groups s ts) (hs' : Groups s' (ts ++ us)) (hr : Result s limit r)
    (he : RaisedAtGroup r.reportMetadata.error) : Result s' limit r := by
  obtain ⟨v, done, h1, h2, h3, h4⟩ := exists_run limit s
  obtain ⟨gs, h5, h6, h7⟩ := finish_spec h2
  unfold Result at hr ⊢
  rw [parse_eq] at hr ⊢
  rw [tokens_of_groups hs] at h1 hr
  rw [tokens_of_groups hs', foldTokens_append, h1]
  rw [h1] at hr
  simp only at hr ⊢
  have herr : v.status.isError = true := by
    rw [h5] at hr
    injection hr with hr
    subst hr
    rw [isError_eq]
    rcases (finalTransition_error h2.statusOk).1 with h | ⟨-, h | h⟩
    · rw [← h]; exact he.1
    · exact absurd h he.2.1
    · exact absurd h he.2.2
  rw [foldTokens_error herr]
  exact hr

/-- C17 for text: after a report which fails at a group any text may follow. -/
theorem C17_error_freezes_text (s t : Str) (d : Char) (hd : Blank d) (limit : Nat)
    (r : ParseResult) (hr : Result s limit r) (he : RaisedAtGroup r.reportMetadata.error) :
    Result (s ++ d :: t) limit r := by
  have hd' : ReportInput.isDelim d = true := isDelim_iff.mpr hd
  have key : ∀ (s cur : Str), (∃ us, tokensAux cur (s ++ d :: t) = tokensAux cur s ++ us) := by
    intro s
    induction s with
    | nil =>
      intro cur
      exact ⟨tokensAux [] t, by simp [tokensAux, hd']⟩
    | cons c s ih =>
      intro cur
      simp only [List.cons_append, tokensAux]
      split
      · obtain ⟨us, h⟩ := ih []; exact ⟨us, by rw [h, List.append_assoc]⟩
      · split
        · exact ⟨[], by simp⟩
        · split
          · obtain ⟨us, h⟩ := ih []; exact ⟨us, by rw [h, List.cons_append]⟩
          · exact ih _
  obtain ⟨us, hus⟩ := key s []
  refine C17_error_freezes s (s ++ d :: t) limit (tokens s) us r (groups_tokens s) ?_ hr he
  have := groups_tokens (s ++ d :: t)
  unfold tokens at this ⊢
  rwa [hus] at this

section
attribute [local instance] exactFloat

example : ∃ r, Result c!"METAR ZZZZ NOTIME" 200 r ∧ RaisedAtGroup r.reportMetadata.error := by
  refine ⟨{ reportMetadata := _, groups := _ }, rfl, ?_⟩
  unfold RaisedAtGroup
  decide +kernel

end

/-! ### C18 -/

/-- Number of entries with text after the entry at position `i`. -/
def textAfter (gs : List GroupInfo) (i : Nat) : Nat :=
  ((gs.drop (i + 1)).filter (fun gi => gi.rawString ≠ [])).length

/-- C18. Further groups leave the earlier entries of the result as they are: an entry followed by
two entries with text does not change; an entry with text followed by one entry with text changes
only if it is an unknown group, to which further text may be added. -/
theorem C18_earlier_groups_kept (s s' : Str) (limit : Nat) (ts us : List Str) (r r' : ParseResult)
    (hs : Groups s ts) (hs' : Groups s' (ts ++ us)) (hr : Result s limit r)
    (hr' : Result s' limit r') (i : Nat) (e : GroupInfo) (hi : r.groups[i]? = some e) :
    (2 ≤ textAfter r.groups i → r'.groups[i]? = some e) ∧
    (1 ≤ textAfter r.groups i → e.rawString ≠ [] →
      r'.groups[i]? = some e ∨
      ∃ u t, e.group = .unknown u ∧
        r'.groups[i]? = some { e with rawString := e.rawString ++ ' ' :: t }) := by
  obtain ⟨v, done, h1, h2, h3, h4⟩ := exists_run limit s
  obtain ⟨gs, h5, h6, h7⟩ := finish_spec h2
  unfold Result at hr hr'
  rw [parse_eq] at hr hr'
  rw [tokens_of_groups hs] at h1 hr h3 h4
  rw [tokens_of_groups hs', foldTokens_append, h1] at hr'
  rw [h1] at hr
  simp only at hr hr'
  cases herr : v.status.isError with
  | true =>
    rw [foldTokens_error herr] at hr'
    simp only at hr'
    rw [hr] at hr'
    injection hr' with hr'
    subst hr'
    exact ⟨fun _ => hi, fun _ _ => Or.inl hi⟩
  | false =>
    have hdone : done = ts := by simpa [herr] using h4
    subst hdone
    have htoks : ∀ t ∈ us, Tok t := by
      intro t ht
      refine tok_of_mem (s := s') ?_
      rw [tokens_of_groups hs']
      simp [ht]
    obtain ⟨v', done', h1', h2', h3', h4'⟩ := Run.extend (limit := limit) us done v htoks h2
    obtain ⟨gs', h5', h6', h7'⟩ := finish_spec h2'
    rw [h1'] at hr'
    simp only at hr'
    rw [h5] at hr
    rw [h5'] at hr'
    injection hr with hr
    injection hr' with hr'
    subst hr hr'
    simp only at hi ⊢
    cases hg : v.groups with
    | nil =>
      rw [hg] at h6
      cases h6
      simp at hi
    | cons a tl =>
      rw [hg] at h6
      cases htl : tl with
      | nil =>
        -- at most one entry with text
        rw [htl] at h6
        have : textAfter gs.reverse i = 0 ∨ (1 = textAfter gs.reverse i ∧ e.rawString = []) := by
          cases h6 with
          | fallback | rejected | unknown | reRejected =>
            left
            cases i with
            | zero => simp [textAfter, addGroupToResult]
            | succ i => simp [addGroupToResult] at hi
          | reInvalidated =>
            cases i with
            | zero =>
              simp at hi
              subst hi
              simp [textAfter, List.filter_cons]
              by_cases ha : a.rawString = [] <;> simp [ha]
            | succ i =>
              left
              cases i with
              | zero => simp [textAfter]
              | succ i => simp at hi
        rcases this with h | ⟨h, he⟩
        · rw [h]; simp
        · rw [← h]; simp [he]
      | cons b rest =>
        rw [htl] at h6
        have hk0 : Kept b rest v.groups := by rw [hg, htl]; exact Or.inl ⟨[a], by simp, rfl⟩
        have hk1 : Kept b rest gs' := (Kept.fold us done v v' h2 htoks hk0 h1').appended h6'
        -- the groups before `b` are in place
        have hrest : i < rest.length → gs'.reverse[i]? = rest.reverse[i]? := by
          intro hlt
          have : ∀ l x, gs' = l ++ x :: rest → gs'.reverse[i]? = rest.reverse[i]? := by
            intro l x h
            rw [h]
            simp only [List.reverse_append, List.reverse_cons, List.append_assoc]
            rw [List.getElem?_append_left (by simpa using hlt)]
          rcases hk1 with ⟨l, -, h⟩ | ⟨-, l, t, h⟩
          · exact this _ _ h
          · exact this _ _ h
        have hb : i = rest.length → gs'.reverse[i]? = some b ∨
            ∃ u t, b.group = .unknown u ∧
              gs'.reverse[i]? = some { b with rawString := b.rawString ++ ' ' :: t } := by
          intro heq
          have : ∀ l x, gs' = l ++ x :: rest → gs'.reverse[i]? = some x := by
            intro l x h
            rw [h, heq]
            simp only [List.reverse_append, List.reverse_cons, List.append_assoc]
            rw [List.getElem?_append_right (by simp)]
            simp
          rcases hk1 with ⟨l, -, h⟩ | ⟨hf, l, t, h⟩
          · exact Or.inl (this _ _ h)
          · right
            cases hgr : b.group with
            | unknown u => exact ⟨u, t, rfl, by rw [this _ _ h, hgr]⟩
            | _ => simp [hgr, Group.isFallback] at hf
        -- shape of the result for the shorter report
        have shape : (∃ x, gs = x :: b :: rest) ∨
            (∃ x y, y.rawString = [] ∧ gs = x :: y :: b :: rest) ∨ (∃ x, gs = x :: rest) := by
          cases h6 with
          | fallback => exact Or.inl ⟨_, rfl⟩
          | rejected => exact Or.inl ⟨_, rfl⟩
          | unknown =>
            simp only [addGroupToResult]
            split
            · exact Or.inr (Or.inr ⟨_, rfl⟩)
            · exact Or.inl ⟨_, rfl⟩
          | reRejected => exact Or.inl ⟨_, rfl⟩
          | reInvalidated => exact Or.inr (Or.inl ⟨_, _, rfl, rfl⟩)
        have inRest : ∀ l, gs = l ++ rest → i < rest.length → rest.reverse[i]? = some e := by
          intro l h hlt
          rw [h, List.reverse_append, List.getElem?_append_left (by simpa using hlt)] at hi
          exact hi
        have one : ∀ (x : GroupInfo), ([x].filter (fun gi => gi.rawString ≠ [])).length ≤ 1 :=
          fun x => List.length_filter_le _ _
        have dropLen : ∀ (l : List GroupInfo) (n : Nat),
            ((rest.reverse ++ l).drop (rest.length + n)) = l.drop n := by
          intro l n
          rw [List.drop_append]
          simp
        rcases Nat.lt_trichotomy i rest.length with hlt | heq | hgt
        · have : gs'.reverse[i]? = some e := by
            rw [hrest hlt]
            rcases shape with ⟨x, h⟩ | ⟨x, y, -, h⟩ | ⟨x, h⟩
            · exact inRest [x, b] (by simp [h]) hlt
            · exact inRest [x, y, b] (by simp [h]) hlt
            · exact inRest [x] (by simp [h]) hlt
          exact ⟨fun _ => this, fun _ _ => Or.inl this⟩
        · rcases shape with ⟨x, h⟩ | ⟨x, y, hy, h⟩ | ⟨x, h⟩
          · have hrev : gs.reverse = rest.reverse ++ [b, x] := by simp [h]
            rw [hrev] at hi ⊢
            have he : e = b := by
              rw [List.getElem?_append_right (by simp; omega)] at hi
              simpa [heq] using hi.symm
            have hta : textAfter (rest.reverse ++ [b, x]) i ≤ 1 := by
              rw [textAfter, heq, dropLen]
              exact one x
            refine ⟨fun h => by omega, fun _ _ => ?_⟩
            rw [he]; exact hb heq
          · have hrev : gs.reverse = rest.reverse ++ [b, y, x] := by simp [h]
            rw [hrev] at hi ⊢
            have he : e = b := by
              rw [List.getElem?_append_right (by simp; omega)] at hi
              simpa [heq] using hi.symm
            have hta : textAfter (rest.reverse ++ [b, y, x]) i ≤ 1 := by
              rw [textAfter, heq, dropLen]
              simp only [List.drop_succ_cons, List.drop_zero, List.filter_cons, hy]
              simpa [List.filter_cons] using one x
            refine ⟨fun h => by omega, fun _ _ => ?_⟩
            rw [he]; exact hb heq
          · have hrev : gs.reverse = rest.reverse ++ [x] := by simp [h]
            have hta : textAfter gs.reverse i = 0 := by
              rw [hrev, textAfter, heq, dropLen]
              simp
            rw [hta]; simp
        · obtain ⟨n, rfl⟩ : ∃ n, i = rest.length + 1 + n := ⟨i - rest.length - 1, by omega⟩
          rcases shape with ⟨x, h⟩ | ⟨x, y, hy, h⟩ | ⟨x, h⟩
          · have hrev : gs.reverse = rest.reverse ++ [b, x] := by simp [h]
            have hta : textAfter gs.reverse (rest.length + 1 + n) = 0 := by
              rw [hrev, textAfter, show rest.length + 1 + n + 1 = rest.length + (n + 2) by omega,
                dropLen]
              simp
            rw [hta]; simp
          · have hrev : gs.reverse = rest.reverse ++ [b, y, x] := by simp [h]
            rw [hrev] at hi ⊢
            cases n with
            | zero =>
              have he : e = y := by
                rw [List.getElem?_append_right (by simp)] at hi
                simpa using hi.symm
              have hta : textAfter (rest.reverse ++ [b, y, x]) (rest.length + 1 + 0) ≤ 1 := by
                rw [textAfter, show rest.length + 1 + 0 + 1 = rest.length + 2 by omega, dropLen]
                exact one x
              exact ⟨fun h => by omega, fun _ hne => absurd (he ▸ hy) hne⟩
            | succ n =>
              have hta : textAfter (rest.reverse ++ [b, y, x]) (rest.length + 1 + (n + 1)) = 0 := by
                rw [textAfter,
                  show rest.length + 1 + (n + 1) + 1 = rest.length + (n + 3) by omega, dropLen]
                simp
              rw [hta]; simp
          · have hrev : gs.reverse = rest.reverse ++ [x] := by simp [h]
            rw [hrev, List.getElem?_append_right (by simp; omega)] at hi
            rw [show rest.length + 1 + n - rest.reverse.length = n + 1 by simp; omega] at hi
            simp at hi

section
attribute [local instance] exactFloat

/-- An unknown group before the last entry does change: `XXX` becomes `XXX PK YYY`. -/
example : ∃ r r' : ParseResult, Result c!"METAR ZZZZ 041115Z 00000KT RMK XXX PK WND" 200 r ∧
    Result c!"METAR ZZZZ 041115Z 00000KT RMK XXX PK WND YYY" 200 r' ∧
    (r.groups[5]?.map (·.rawString)) = some c!"XXX PK WND" ∧
    (r'.groups[5]?.map (·.rawString)) = some c!"XXX PK WND YYY" := by
  refine ⟨{ reportMetadata := _, groups := _ }, { reportMetadata := _, groups := _ }, rfl, rfl, ?_⟩
  decide +kernel

end

/-! ### C21 -/

/-- C21. No group other than an unknown one accepts the empty text as its continuation. -/
theorem C21_empty_not_absorbed (g g' : Group) (p : ReportPart) (md : ReportMetadata)
    (res : AppendResult) (hg : ∀ u, g ≠ .unknown u) (h : g.append [] p md = .ok (g', res)) :
    res ≠ .APPENDED := by
  refine Group.append_inert ?_ (by decide) p md h
  cases g with
  | unknown u => exact absurd rfl (hg u)
  | _ => rfl

/-- C21. No raw string of a result begins or ends with a space. -/
theorem C21_no_trailing_blank (report : Str) (limit : Nat) (r : ParseResult)
    (hr : Result report limit r) (gi : GroupInfo) (h : gi ∈ r.groups) :
    gi.rawString.head? ≠ some ' ' ∧ gi.rawString.getLast? ≠ some ' ' := by
  obtain ⟨v, done, gs, h1, h2, h3, h4, h5, h6⟩ := parse_spec report limit
  obtain ⟨k, hk, -, hj, -⟩ := C04_no_text_lost report limit _ r (groups_tokens report) hr
  have hw : ∀ w ∈ words gi.rawString, Tok w := by
    intro w hw
    have : w ∈ r.groups.flatMap (fun gi => words gi.rawString) := List.mem_flatMap.mpr ⟨gi, h, hw⟩
    rw [hk] at this
    exact tok_of_mem (List.mem_of_mem_take this)
  rw [← hj gi h]
  have nosp : ∀ w, Tok w → ∀ c ∈ w, c ≠ ' ' := by
    intro w hw c hc hb
    have := (hw.2 c hc).1
    subst hb
    exact this (by decide)
  revert hw
  generalize words gi.rawString = ws
  intro hw
  induction ws with
  | nil => simp [unwords]
  | cons w ws ih =>
    have htw := hw w (by simp)
    have hne := htw.1
    have hfirst : ∀ l, (w ++ l).head? ≠ some ' ' := by
      intro l
      cases hwc : w with
      | nil => exact absurd hwc hne
      | cons c w' =>
        simp only [List.cons_append, List.head?_cons, ne_eq, Option.some.injEq]
        exact nosp w htw c (by simp [hwc])
    cases ws with
    | nil =>
      simp only [unwords]
      refine ⟨by simpa using hfirst [], ?_⟩
      intro hl
      exact nosp w htw ' ' (List.mem_of_getLast? hl) rfl
    | cons w' ws =>
      simp only [unwords]
      refine ⟨hfirst _, ?_⟩
      have ih' := (ih (fun x hx => hw x (by simp [hx]))).2
      have hne' : unwords (w' :: ws) ≠ [] := by
        cases ws with
        | nil => simpa [unwords] using (hw w' (by simp)).1
        | cons => simp [unwords]
      rw [List.getLast?_append]
      simp only [List.getLast?_cons]
      cases hu : unwords (w' :: ws) with
      | nil => exact absurd hu hne'
      | cons x xs =>
        rw [hu] at ih'
        simpa [List.getLast?_cons] using ih'

end Metaf.Props

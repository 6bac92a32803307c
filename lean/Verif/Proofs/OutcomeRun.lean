import Verif.Proofs.OutcomeBody

/-!
The parser on a whole report, and the limit on the number of groups.
-/

set_option linter.unusedSectionVars false

namespace Metaf.Props

open Metaf Metaf.Spec

variable [FloatIeee]

/-! ### The whole report -/

theorem inv_start : Parser.GroupsInv ({} : Parser.Vars).groups := by intro x hx; simp at hx

theorem At.begin {ty : ReportType} {hs : Words} {v : Parser.Vars} (h : At (bodyBegin ty) ty hs v)
    (hi : Parser.GroupsInv v.groups) : Begin ty (headerHour hs) v := ⟨h.status, h.closed, h.hour, hi⟩

theorem add_closed {gs : List GroupInfo} (h : Parser.LastClosed gs) (g : Group) (p : ReportPart) (w : Str) :
    Parser.addGroupToResult gs g p w = ⟨g, p, w⟩ :: gs := by
  cases gs with
  | nil => rfl
  | cons y G => simp [Parser.addGroupToResult, (h y (by simp)).1]

theorem period_iff {w : Str} {md : ReportMetadata} {g : Group} (hg : GroupParser.parse w .HEADER md = .ok g)
    (hw : ¬ PeriodWord w) (hn : w ≠ c!"NIL") : getSyntaxGroup g ≠ .TIME_SPAN ∧ getSyntaxGroup g ≠ .NIL := by
  have hs := header_syntax hg
  constructor
  · intro e
    rw [e] at hs
    exact hw hs
  · intro e
    rw [e] at hs
    exact hn hs

/-- Without type, period and `NIL` the report is a METAR from here on. -/
theorem untyped_step {limit : Nat} {hs : Words} {v : Parser.Vars} (hv : At .TIME_SPAN .UNKNOWN hs v) {w : Str}
    (hi : Parser.GroupsInv v.groups)
    (hw : ¬ PeriodWord w) (hn : w ≠ c!"NIL") (hl : v.groupCount + 1 < limit) :
    Parser.stepTok limit w v = Parser.stepTok limit w
      { v with status := ⟨.REPORT_BODY_BEGIN_METAR, .METAR, .NONE⟩, groupCount := v.groupCount + 1 } := by
  obtain ⟨g0, hg0⟩ : ∃ g, GroupParser.parse w .HEADER v.md = .ok g := by
    obtain ⟨v1, -, hs1, -⟩ := Parser.stepTok_spec (limit := limit) (tok := w) hi
      (show v.status.isError = false by rw [hv.status]; rfl)
    have hp : v.status.getReportPart = .HEADER := by rw [hv.status]; rfl
    cases hs1 with
    | absorbed ha =>
      have := appended_eq ha
      rw [hv.closed.append] at this
      cases this
    | parsed _ hg => rw [hp] at hg; exact ⟨_, hg⟩
    | reparsed _ _ _ hg => exact ⟨_, hg⟩
  obtain ⟨h1, h2⟩ := period_iff hg0 hw hn
  have hlt : ¬ (v.groupCount + 1 ≥ limit) := by omega
  obtain ⟨st, md, G, c⟩ := v
  obtain ⟨hst, -, hc, -, -⟩ := hv
  simp only at hst hc hg0 hlt
  subst hst
  have ht : (⟨.TIME_SPAN, .UNKNOWN, .NONE⟩ : Status).transition (getSyntaxGroup g0) =
      ⟨.REPORT_BODY_BEGIN_METAR_REPEAT_PARSE, .METAR, .NONE⟩ := by
    simp [Status.transition, Status.transitionFromTimeSpan, Status.setReportType, Status.setState]
  have hp : (⟨.TIME_SPAN, .UNKNOWN, .NONE⟩ : Status).getReportPart = .HEADER := rfl
  have hr : (⟨.REPORT_BODY_BEGIN_METAR_REPEAT_PARSE, .METAR, .NONE⟩ : Status).isReparseRequired = true := rfl
  have he : (⟨.REPORT_BODY_BEGIN_METAR_REPEAT_PARSE, .METAR, .NONE⟩ : Status).isError = false := rfl
  have hp2 : (⟨.REPORT_BODY_BEGIN_METAR_REPEAT_PARSE, .METAR, .NONE⟩ : Status).getReportPart = .METAR := rfl
  have hp3 : (⟨.REPORT_BODY_BEGIN_METAR, .METAR, .NONE⟩ : Status).getReportPart = .METAR := rfl
  simp only [Parser.stepTok, Parser.step, hp, hp3, hc.append, Parser.parseGroup, hg0, Parser.countGroup, ht,
    if_neg hlt, hr, he, Bool.not_false, Bool.and_self, if_true, hp2]
  cases hg : GroupParser.parse w .METAR md with
  | error f => rfl
  | ok g =>
    have e1 : ∀ sg, (⟨.REPORT_BODY_BEGIN_METAR_REPEAT_PARSE, .METAR, .NONE⟩ : Status).transition sg =
        (⟨.REPORT_BODY_BEGIN_METAR, .METAR, .NONE⟩ : Status).transition sg := fun sg => by cases sg <;> rfl
    have e2 : ∀ sg n, (if n ≥ limit then
          ((⟨.REPORT_BODY_BEGIN_METAR, .METAR, .NONE⟩ : Status).transition sg).setError .REPORT_TOO_LARGE
        else (⟨.REPORT_BODY_BEGIN_METAR, .METAR, .NONE⟩ : Status).transition sg).isReparseRequired = false := by
      intro sg n
      split
      · rfl
      · cases sg <;> rfl
    simp only [e1, e2, Bool.false_and, Bool.false_eq_true, if_false]

theorem untyped_length {hs : Words} (h : Opening .time .UNKNOWN hs) : hs.length = 2 := by
  cases h with
  | time h _ _ _ _ =>
    cases h with
    | location hp h _ =>
      have := opening_type h
      rcases hp with rfl | rfl | rfl
      · cases h; rfl
      · rcases this with h | h <;> cases h
      · rcases this with h | h <;> cases h

/-- The parser on the words of a report. -/
theorem meaning_fold {limit : Nat} {ws : List Str} {n : Nat} {gs : List GroupInfo} {ty : ReportType}
    {e : ReportError} (h : Meaning ws n gs ty e) (hl : n < limit) :
    ∃ v, Parser.foldTokens limit ws {} = .ok v ∧ Done ty e gs n v := by
  cases h with
  | empty => exact ⟨_, rfl, rfl, rfl, rfl, rfl⟩
  | @cut p ty hs ho hne =>
    obtain ⟨v, h1, h2⟩ := opening_fold ho hl
    refine ⟨v, h1, h2.count, by rw [h2.status], ?_, ?_⟩
    · rw [h2.status]
      cases ho with
      | start => exact absurd rfl hne
      | _ => rfl
    · rw [h2.closed.append, ← h2.groups, List.reverse_reverse]
  | @wrong p ty hs w rest x e ho hw hx =>
    obtain ⟨v, h1, h2⟩ := opening_fold (limit := limit) ho (by omega)
    obtain ⟨g, hg, rfl⟩ := entry_parse hx v.md
    have ht := wrong_transition hw hg
    rw [← h2.status] at ht
    have he : e ≠ .NONE := by cases hw <;> simp
    have hstep := step_word (limit := limit) (v := v) (p := .HEADER) (w := w)
      (by rw [h2.status]; cases p <;> rfl) (h2.closed.append _ _ _) hg (by rw [h2.count]; exact hl) (by rw [ht]; rfl)
    rw [add_closed h2.closed] at hstep
    have hf := fold_to_error (rest := rest) (by rw [h2.status]; rfl) hstep (by simp [Status.isError, ht, he])
    refine ⟨_, by rw [Parser.foldTokens_append, h1]; exact hf, ?_, ?_, ?_, ?_⟩
    · simp [h2.count]
    · simp [ht]
    · simp [ht, Status.finalTransition]
    · have hq : Parser.Closed g ∨ g.isFallback = true := by
        cases hx with
        | said h => exact Or.inl (word_closed h)
        | unknown => exact Or.inr rfl
      rw [quiet hq]
      simp [← h2.groups]
  | @nil p ty hs ws n gs e ho hp ha =>
    obtain ⟨v, h1, h2⟩ := opening_fold (limit := limit) ho (by omega)
    have hk : HeaderWord c!"NIL" (.keyword ⟨.NIL⟩) :=
      keyword_word [.HEADER, .METAR, .TAF] (by simp [keywords]) (by simp)
    have ht : v.status.transition (getSyntaxGroup (.keyword ⟨.NIL⟩)) = ⟨.NIL, ty, .NONE⟩ := by
      rw [h2.status]
      have := opening_type ho
      rcases hp with rfl | rfl
      · rfl
      · rcases this with rfl | rfl <;> rfl
    have hstep := step_word (limit := limit) (v := v) (p := .HEADER) (w := c!"NIL")
      (by rw [h2.status]; cases p <;> rfl) (h2.closed.append _ _ _) (word_parse hk v.md) (by rw [h2.count]; omega)
      (by rw [ht]; rfl)
    rw [add_closed h2.closed] at hstep
    obtain ⟨v', k1, k2⟩ := after_fold (limit := limit) (Or.inl ⟨rfl, rfl⟩) ha
      (v := ⟨_, Parser.updateMetadata (.keyword ⟨.NIL⟩) v.md, ⟨.keyword ⟨.NIL⟩, .HEADER, c!"NIL"⟩ :: v.groups,
        v.groupCount + 1⟩) ht (last_closed (word_closed hk)) (by simp only [h2.count]; omega)
    refine ⟨v', ?_, ?_⟩
    · rw [Parser.foldTokens_append, h1]
      simp only
      rw [fold_cons (by rw [h2.status]; rfl) hstep]
      exact k1
    · simp only [h2.count, List.reverse_cons, h2.groups] at k2
      simpa using k2
  | @typed ty hs ws n gs e hf hb =>
    obtain ⟨v, h1, h2⟩ := full_fold (limit := limit) hf (by omega)
    obtain ⟨v', k1, k2⟩ := body_fold (limit := limit) (full_type hf) hb (h2.begin (fold_inv _ inv_start h1))
      (by rw [h2.count]; exact hl)
    refine ⟨v', by rw [Parser.foldTokens_append, h1]; exact k1, ?_⟩
    rwa [h2.count, h2.groups] at k2
  | @untyped hs w ws n gs e ho hw hn hb =>
    obtain ⟨v, h1, h2⟩ := opening_fold (limit := limit) ho (by omega)
    have hinv := fold_inv _ inv_start h1
    obtain ⟨v', k1, k2⟩ := body_fold (limit := limit) (Or.inl rfl) hb
      (v := { v with status := ⟨.REPORT_BODY_BEGIN_METAR, .METAR, .NONE⟩, groupCount := v.groupCount + 1 })
      ⟨rfl, h2.closed, h2.hour, hinv⟩ (by simp only [h2.count]; exact hl)
    refine ⟨v', ?_, ?_⟩
    · rw [Parser.foldTokens_append, h1]
      simp only
      rw [Parser.foldTokens, h2.status] at *
      rw [untyped_step h2 hinv hw hn (by rw [h2.count]; omega)]
      exact k1
    · simp only [h2.count, h2.groups] at k2
      exact k2

/-! ### The limit -/

theorem step_limit {M : Nat} {w : Str} {v v1 : Parser.Vars} (hi : Parser.GroupsInv v.groups)
    (he : v.status.isError = false) (h : Parser.stepTok (M + 1) w v = .ok v1) (hl : v1.groupCount ≤ M) :
    v.groupCount < v1.groupCount ∧
    Parser.stepTok M w v = .ok { v1 with status := Parser.limitStatus M v1.groupCount v1.status } := by
  obtain ⟨v2, k1, k2, -⟩ := Parser.stepTok_spec (limit := M + 1) (tok := w) hi he
  rw [h] at k1
  cases k1
  have hlim : ∀ {n : Nat} (st : Status), n ≤ M → Parser.limitStatus (M + 1) n st = st := by
    intro n st hn
    have : ¬ (n ≥ M + 1) := by omega
    simp [Parser.limitStatus, this]
  cases k2 with
  | absorbed ha =>
    simp only at hl
    refine ⟨by simp, ?_⟩
    simp only [hlim _ hl]
    simp only [Parser.stepTok, Parser.step, appended_eq ha, Parser.countGroup, Parser.limitStatus]
  | @parsed gs g ha hg hgi hr =>
    simp only at hl
    refine ⟨by simp, ?_⟩
    simp only [hlim _ hl]
    have hr' : (v.status.transition (getSyntaxGroup g)).isReparseRequired = false := by
      by_contra hn
      simp only [Bool.not_eq_false, Status.isReparseRequired, beq_iff_eq] at hn
      have := hr hn
      omega
    have hr2 : (if v.groupCount + 1 ≥ M then (v.status.transition (getSyntaxGroup g)).setError .REPORT_TOO_LARGE
        else v.status.transition (getSyntaxGroup g)).isReparseRequired = false := by
      split
      · rfl
      · exact hr'
    simp only [Parser.stepTok, Parser.step, appended_eq ha, Parser.parseGroup, hg, Parser.countGroup, hr2,
      Bool.false_and, Bool.false_eq_true, if_false, Parser.limitStatus]
  | @reparsed gs g0 g ha hst hty hg0 h1 h2 hc hg hgi =>
    simp only at hl
    refine ⟨by simp, ?_⟩
    simp only [hlim _ hl]
    obtain ⟨⟨s, t, e⟩, md, G, c⟩ := v
    simp only at hst hty
    subst hst hty
    have hlt : ¬ (c + 1 ≥ M) := by simp only at hl; omega
    have hp : (⟨.TIME_SPAN, .UNKNOWN, e⟩ : Status).getReportPart = .HEADER := rfl
    have ht : (⟨.TIME_SPAN, .UNKNOWN, e⟩ : Status).transition (getSyntaxGroup g0) = Parser.repeatStatus e := by
      simp [Status.transition, Status.transitionFromTimeSpan, Status.setReportType, Status.setState,
        Parser.repeatStatus]
    have hr : (Parser.repeatStatus e).isReparseRequired = true := rfl
    have he' : (Parser.repeatStatus e).isError = false := by
      simp only [Status.isError] at he ⊢
      exact he
    have hp2 : (Parser.repeatStatus e).getReportPart = .METAR := rfl
    have ha' := appended_eq ha
    simp only [hp] at ha' hg0
    have hr2 : ((Parser.repeatStatus e).transition (getSyntaxGroup g)).isReparseRequired = false := by
      cases getSyntaxGroup g <;> rfl
    have hr3 : (if c + 1 + 1 ≥ M then ((Parser.repeatStatus e).transition (getSyntaxGroup g)).setError .REPORT_TOO_LARGE
        else (Parser.repeatStatus e).transition (getSyntaxGroup g)).isReparseRequired = false := by
      split
      · rfl
      · exact hr2
    simp only [Parser.stepTok, Parser.step, hp, ha', Parser.parseGroup, hg0, Parser.countGroup, ht, if_neg hlt, hr, he',
      Bool.not_false, Bool.and_self, if_true, hp2, hg, hr3, Bool.false_and, Bool.false_eq_true, if_false,
      Parser.limitStatus]

theorem fold_count {M : Nat} : ∀ (ws : List Str) {v v' : Parser.Vars}, Parser.GroupsInv v.groups →
    Parser.foldTokens M ws v = .ok v' → v' = v ∨ v.groupCount < v'.groupCount := by
  intro ws
  induction ws with
  | nil => intro v v' _ h; cases h; exact Or.inl rfl
  | cons w ws ih =>
    intro v v' hi h
    cases he : v.status.isError with
    | true => rw [Parser.foldTokens_error he] at h; cases h; exact Or.inl rfl
    | false =>
      obtain ⟨v1, k1, k2, k3⟩ := Parser.stepTok_spec (limit := M) (tok := w) hi he
      rw [fold_cons he k1] at h
      have hlt : v.groupCount < v1.groupCount := by cases k2 <;> simp
      rcases ih k3 h with rfl | h
      · exact Or.inr hlt
      · exact Or.inr (by omega)

/-- With the word which reaches the limit reading ends. -/
theorem fold_limit {M : Nat} : ∀ (us rest : List Str) {v v' : Parser.Vars}, Parser.GroupsInv v.groups →
    Parser.foldTokens (M + 1) us v = .ok v' → v'.groupCount = M → v.groupCount < M →
    Parser.foldTokens M (us ++ rest) v = .ok { v' with status := v'.status.setError .REPORT_TOO_LARGE } := by
  intro us
  induction us with
  | nil => intro rest v v' _ h h1 h2; cases h; omega
  | cons w us ih =>
    intro rest v v' hi h h1 h2
    cases he : v.status.isError with
    | true => rw [Parser.foldTokens_error he] at h; cases h; omega
    | false =>
      obtain ⟨v1, k1, -, k3⟩ := Parser.stepTok_spec (limit := M + 1) (tok := w) hi he
      rw [fold_cons he k1] at h
      have hc := fold_count us k3 h
      have hle : v1.groupCount ≤ M := by rcases hc with rfl | h <;> omega
      obtain ⟨-, k4⟩ := step_limit hi he k1 hle
      rw [List.cons_append, fold_cons he k4]
      rcases hc with rfl | hc
      · have : Parser.limitStatus M v'.groupCount v'.status = v'.status.setError .REPORT_TOO_LARGE := by
          simp [Parser.limitStatus, h1]
        rw [this]
        exact Parser.foldTokens_error rfl _
      · have : Parser.limitStatus M v1.groupCount v1.status = v1.status := by
          have : ¬ (v1.groupCount ≥ M) := by omega
          simp [Parser.limitStatus, this]
        rw [this]
        exact ih rest k3 h h1 (show v1.groupCount < M by omega)

/-- No words allowed is the same as one. -/
theorem fold_zero (ws : List Str) : Parser.foldTokens 0 ws {} = Parser.foldTokens 1 ws {} := by
  cases ws with
  | nil => rfl
  | cons w ws =>
    have h0 : Parser.stepTok 0 w {} = Parser.stepTok 1 w {} := by
      simp only [Parser.stepTok, Parser.step, Parser.appendToLastResultGroup, Parser.parseGroup, Parser.countGroup]
      cases GroupParser.parse w _ _ <;> simp
    obtain ⟨v1, k1, k2, -⟩ := Parser.stepTok_spec (limit := 1) (tok := w) (v := {}) inv_start rfl
    have he : v1.status.isError = true := by
      cases k2 with
      | absorbed => rfl
      | parsed => rfl
      | reparsed _ h => cases h
    rw [fold_to_error rfl k1 he, fold_to_error rfl (h0.trans k1) he]

theorem fold_max (limit : Nat) (ws : List Str) :
    Parser.foldTokens limit ws {} = Parser.foldTokens (max limit 1) ws {} := by
  rcases Nat.eq_zero_or_pos limit with rfl | h
  · exact fold_zero ws
  · rw [Nat.max_eq_left h]

/-- The parser on the words of a report with any limit. -/
theorem outcome_fold {limit : Nat} {ws : List Str} {gs : List GroupInfo} {ty : ReportType} {e : ReportError}
    (h : Outcome ws limit gs ty e) :
    ∃ v n, Parser.foldTokens limit ws {} = .ok v ∧ Done ty e gs n v := by
  cases h with
  | within hm hl =>
    obtain ⟨v, h1, h2⟩ := meaning_fold hm hl
    rw [fold_max]
    exact ⟨v, _, h1, h2⟩
  | @tooLarge us rest n gs ty e hw hm hl =>
    subst hw
    obtain ⟨v, h1, h2⟩ := meaning_fold (limit := n + 1) hm (by omega)
    rw [fold_max, ← hl]
    refine ⟨_, n, fold_limit us rest inv_start h1 h2.count (by simp only; omega), h2.count, h2.type, rfl, ?_⟩
    rw [appendToLast_end _ _ v.status.getReportPart]
    exact h2.flush
  | @third hs w rest x hw ho hp hn hx hl =>
    subst hw hl
    have hlen := untyped_length ho
    obtain ⟨v, h1, h2⟩ := opening_fold (limit := 3) ho (by omega)
    obtain ⟨g, hg, rfl⟩ := entry_parse hx v.md
    obtain ⟨k1, k2⟩ := period_iff hg hp hn
    have hgr := h2.groups
    have hcl := h2.closed
    have hcount := h2.count
    have hst := h2.status
    obtain ⟨st, md, G, c⟩ := v
    simp only [stateAt] at hgr hcl hcount hst hg
    rw [hlen] at hcount
    subst hst hcount
    have ht : (⟨.TIME_SPAN, .UNKNOWN, .NONE⟩ : Status).transition (getSyntaxGroup g) =
        ⟨.REPORT_BODY_BEGIN_METAR_REPEAT_PARSE, .METAR, .NONE⟩ := by
      simp [Status.transition, Status.transitionFromTimeSpan, Status.setReportType, Status.setState]
    have hpt : (⟨.TIME_SPAN, .UNKNOWN, .NONE⟩ : Status).getReportPart = .HEADER := rfl
    have hstep : Parser.stepTok 3 w ⟨⟨.TIME_SPAN, .UNKNOWN, .NONE⟩, md, G, 2⟩ = .ok
        ⟨⟨.ERROR, .METAR, .REPORT_TOO_LARGE⟩, Parser.updateMetadata g md, ⟨g, .HEADER, w⟩ :: G, 3⟩ := by
      simp only [Parser.stepTok, Parser.step, hpt, hcl.append, Parser.parseGroup, hg, Parser.countGroup, ht]
      rw [← add_closed hcl]
      rfl
    have hf := fold_to_error (rest := rest) rfl hstep rfl
    refine ⟨_, 3, by rw [Parser.foldTokens_append, h1]; exact hf, rfl, rfl, rfl, ?_⟩
    · have hq : Parser.Closed g ∨ g.isFallback = true := by
        cases hx with
        | said h => exact Or.inl (word_closed h)
        | unknown => exact Or.inr rfl
      rw [quiet hq]
      simp [← hgr]

end Metaf.Props

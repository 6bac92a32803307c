import Verif.Proofs.OutcomeHeader

/-!
The parser on the words after the header.
-/

set_option linter.unusedSectionVars false

namespace Metaf.Props

open Metaf Metaf.Spec

variable [FloatIeee]

/-! ### What the parser keeps -/

theorem fold_inv {limit : Nat} : ∀ (ws : List Str) {v v' : Parser.Vars}, Parser.GroupsInv v.groups →
    Parser.foldTokens limit ws v = .ok v' → Parser.GroupsInv v'.groups := by
  intro ws
  induction ws with
  | nil => intro v v' hi h; cases h; exact hi
  | cons w ws ih =>
    intro v v' hi h
    cases he : v.status.isError with
    | true => rw [Parser.foldTokens_error he] at h; cases h; exact hi
    | false =>
      obtain ⟨v1, h1, -, hi1⟩ := Parser.stepTok_spec (limit := limit) (tok := w) hi he
      rw [fold_cons he h1] at h
      exact ih hi1 h

/-- After the header the hour of the report does not change. -/
theorem fold_hour {limit : Nat} : ∀ (ws : List Str) {v v' : Parser.Vars}, Parser.GroupsInv v.groups →
    v.status.getReportPart ≠ .HEADER → Parser.foldTokens limit ws v = .ok v' →
    reportHour v'.md = reportHour v.md := by
  intro ws
  induction ws with
  | nil => intro v v' _ _ h; cases h; rfl
  | cons w ws ih =>
    intro v v' hi hp h
    cases he : v.status.isError with
    | true => rw [Parser.foldTokens_error he] at h; cases h; rfl
    | false =>
      obtain ⟨v1, h1, hs, hi1⟩ := Parser.stepTok_spec (limit := limit) (tok := w) hi he
      rw [fold_cons he h1] at h
      have part : ∀ {n : Nat} {st : Status}, st.getReportPart ≠ .HEADER →
          (Parser.limitStatus limit n st).getReportPart ≠ .HEADER := by
        intro n st h
        rcases limit_part limit n st with e | ⟨-, e⟩ <;> rw [e]
        · exact h
        · simp
      cases hs with
      | absorbed ha =>
        have k := ih hi1 (part hp) h
        exact k
      | parsed ha hg _ _ =>
        have k := ih hi1 (part (transition_left hp)) h
        exact k.trans (hour_kept hp hg)
      | reparsed _ hst => exact absurd (by simp [Status.getReportPart, hst]) hp

/-! ### The end of parsing -/

/-- Parsing has come to its end: `E` are the entries, `n` words have been counted. -/
structure Done (ty : ReportType) (e : ReportError) (E : List GroupInfo) (n : Nat) (v : Parser.Vars) : Prop where
  count : v.groupCount = n
  type : v.status.reportType = ty
  error : v.status.finalTransition.reportError = e
  flush : Parser.appendToLastResultGroup v.groups [] v.status.getReportPart v.md = .ok (E.reverse, false)

theorem fold_to_error {limit : Nat} {w : Str} {rest : List Str} {v v' : Parser.Vars} (he : v.status.isError = false)
    (h : Parser.stepTok limit w v = .ok v') (he' : v'.status.isError = true) :
    Parser.foldTokens limit (w :: rest) v = .ok v' := by
  rw [fold_cons he h, Parser.foldTokens_error he']

/-- Nothing is added to a last group which is closed or unknown. -/
theorem quiet {x : GroupInfo} {G : List GroupInfo} (h : Parser.Closed x.group ∨ x.group.isFallback = true) (s : Str)
    (p : ReportPart) (md : ReportMetadata) :
    Parser.appendToLastResultGroup (x :: G) s p md = .ok (x :: G, false) := by
  rcases h with h | h
  · exact (last_closed h).append _ _ _
  · simp [Parser.appendToLastResultGroup, h]

theorem after_fold {limit : Nat} {ty : ReportType} {err e : ReportError} {s : State} {ws : List Str} {n : Nat}
    {gs : List GroupInfo} {v : Parser.Vars}
    (hs : s = .NIL ∧ err = .UNEXPECTED_GROUP_AFTER_NIL ∨ s = .CNL ∧ err = .UNEXPECTED_GROUP_AFTER_CNL)
    (h : After err ws n gs e) (hv : v.status = ⟨s, ty, .NONE⟩) (hc : Parser.LastClosed v.groups)
    (hl : v.groupCount + n < limit) :
    ∃ v', Parser.foldTokens limit ws v = .ok v' ∧ Done ty e (v.groups.reverse ++ gs) (v.groupCount + n) v' := by
  cases h with
  | nothing =>
    refine ⟨v, rfl, rfl, by rw [hv], ?_, by simpa using hc.append _ _ _⟩
    rw [hv]
    rcases hs with ⟨rfl, -⟩ | ⟨rfl, -⟩ <;> rfl
  | @word w rest x hx =>
    obtain ⟨g, hg, rfl, hcl⟩ := after_parse hx v.md
    have ht : v.status.transition (getSyntaxGroup g) = ⟨.ERROR, ty, err⟩ := by
      rw [hv]
      rcases hs with ⟨rfl, rfl⟩ | ⟨rfl, rfl⟩ <;> rfl
    have he : err ≠ .NONE := by rcases hs with ⟨-, rfl⟩ | ⟨-, rfl⟩ <;> simp
    have hstep := step_word (limit := limit) (v := v) (p := .UNKNOWN) (w := w)
      (by rw [hv]; rcases hs with ⟨rfl, -⟩ | ⟨rfl, -⟩ <;> rfl) (hc.append _ _ _) hg hl (by rw [ht]; rfl)
    have hadd : Parser.addGroupToResult v.groups g .UNKNOWN w = ⟨g, .UNKNOWN, w⟩ :: v.groups := by
      rcases hcl with hcl | rfl
      · exact Parser.addGroup_not_fallback hcl.1
      · cases hvg : v.groups with
        | nil => rfl
        | cons y G =>
          rw [hvg] at hc
          simp [Parser.addGroupToResult, (hc y (by simp)).1]
    rw [hadd] at hstep
    refine ⟨_, fold_to_error (by rw [hv]; rfl) hstep (by simp [Status.isError, ht, he]), rfl, by simp [ht], ?_, ?_⟩
    · simp [ht, Status.finalTransition]
    · rw [quiet (by rcases hcl with h | rfl; exacts [Or.inl h, Or.inr rfl])]
      simp

/-! ### The remarks -/

/-- What the parser does in the remarks of a TAF it does in those of a METAR, too, up to the maintenance
indicator. -/
theorem twin_step {limit : Nat} {w : Str} {v v' : Parser.Vars} {t : ReportType} (hv : v.status = ⟨.REMARK_METAR, t, .NONE⟩)
    (hl : v.groupCount + 1 < limit) (h : Parser.stepTok limit w v = .ok v') (ty : ReportType) :
    (w ≠ c!"$" → v'.status = ⟨.REMARK_METAR, t, .NONE⟩ ∧
      Parser.stepTok limit w { v with status := ⟨.REMARK_TAF, ty, .NONE⟩ } =
        .ok { v' with status := ⟨.REMARK_TAF, ty, .NONE⟩ }) ∧
    (w = c!"$" → (∃ gs, Parser.appendToLastResultGroup v.groups w .RMK v.md = .ok (gs, false)) →
      Parser.stepTok limit w { v with status := ⟨.REMARK_TAF, ty, .NONE⟩ } =
        .ok { v' with status := ⟨.ERROR, ty, .MAINTENANCE_INDICATOR_ALLOWED_IN_METAR_ONLY⟩ }) := by
  obtain ⟨st, md, G, c⟩ := v
  simp only at hv hl
  subst hv
  have hlt : ¬ (c + 1 ≥ limit) := by omega
  have hp : ∀ t, (⟨.REMARK_METAR, t, .NONE⟩ : Status).getReportPart = .RMK := fun _ => rfl
  have hp' : (⟨.REMARK_TAF, ty, .NONE⟩ : Status).getReportPart = .RMK := rfl
  simp only [Parser.stepTok, Parser.step, hp, hp'] at h ⊢
  cases ha : Parser.appendToLastResultGroup G w .RMK md with
  | error f => rw [ha] at h; cases h
  | ok r =>
    obtain ⟨gs, b⟩ := r
    rw [ha] at h
    cases b with
    | true =>
      simp only [Parser.countGroup, if_neg hlt, Except.ok.injEq] at h ⊢
      subst h
      exact ⟨fun _ => ⟨rfl, rfl⟩, fun _ ⟨gs', e⟩ => by simp at e⟩
    | false =>
      simp only [Parser.parseGroup, hp, hp'] at h ⊢
      cases hg : GroupParser.parse w .RMK md with
      | error f => rw [hg] at h; cases h
      | ok g =>
        rw [hg] at h
        have ht1 : ∀ sg, (⟨.REMARK_METAR, t, .NONE⟩ : Status).transition sg = ⟨.REMARK_METAR, t, .NONE⟩ := fun _ => rfl
        simp only [Parser.countGroup, if_neg hlt, ht1] at h ⊢
        have hr : (⟨.REMARK_METAR, t, .NONE⟩ : Status).isReparseRequired = false := rfl
        have hr2 : (⟨.REMARK_TAF, ty, .NONE⟩ : Status).isReparseRequired = false := rfl
        simp only [hr, Bool.false_and, Bool.false_eq_true, if_false, Except.ok.injEq] at h
        subst h
        constructor
        · intro hw
          have hsg : getSyntaxGroup g ≠ .MAINTENANCE_INDICATOR := by
            intro e
            apply hw
            rcases (GroupParser.parse_first hg).2 with h2 | rfl
            · cases g with
              | keyword k =>
                obtain ⟨k', hk, e2⟩ := map_some h2
                cases e2
                obtain ⟨t⟩ := k
                obtain ⟨ps, hm, hps⟩ := keyword_parse_iff.mp hk
                simp only [keywords, List.mem_cons, Prod.mk.injEq, List.not_mem_nil, or_false] at hm
                rcases hm with h | h | h | h | h | h | h | h | h | h | h | h | h | h | h | h <;>
                  obtain ⟨rfl, rfl, rfl⟩ := h <;> first | rfl | cases e
              | trend t => simp only [getSyntaxGroup] at e; split at e <;> cases e
              | _ => cases e
            · cases e
          have ht2 : (⟨.REMARK_TAF, ty, .NONE⟩ : Status).transition (getSyntaxGroup g) = ⟨.REMARK_TAF, ty, .NONE⟩ := by
            simp [Status.transition, hsg]
          simp only [ht2, hr2, Bool.false_and, Bool.false_eq_true, if_false, and_self]
        · rintro rfl -
          have : GroupParser.parse c!"$" .RMK md = .ok (.keyword ⟨.MAINTENANCE_INDICATOR⟩) :=
            C66_order_free _ _ _ 0 _ rfl (by simp)
          rw [this] at hg
          cases hg
          rfl

theorem twin_fold {limit : Nat} (ty : ReportType) {t : ReportType} : ∀ (ws : List Str) {v v' : Parser.Vars},
    Parser.GroupsInv v.groups → v.status = ⟨.REMARK_METAR, t, .NONE⟩ → v.groupCount + ws.length < limit → c!"$" ∉ ws →
    Parser.foldTokens limit ws v = .ok v' →
    v'.status = ⟨.REMARK_METAR, t, .NONE⟩ ∧ v'.groupCount = v.groupCount + ws.length ∧ Parser.GroupsInv v'.groups ∧
    Parser.foldTokens limit ws { v with status := ⟨.REMARK_TAF, ty, .NONE⟩ } =
      .ok { v' with status := ⟨.REMARK_TAF, ty, .NONE⟩ } := by
  intro ws
  induction ws with
  | nil => intro v v' hi hv _ _ h; cases h; exact ⟨hv, rfl, hi, rfl⟩
  | cons w ws ih =>
    intro v v' hi hv hl hd h
    rw [List.length_cons] at hl
    simp only [List.mem_cons, not_or] at hd
    obtain ⟨v1, h1, h2, hi1⟩ := Parser.stepTok_spec (limit := limit) (tok := w) hi (by rw [hv]; rfl)
    rw [fold_cons (by rw [hv]; rfl) h1] at h
    obtain ⟨k1, k2⟩ := (twin_step hv (by omega) h1 ty).1 (Ne.symm hd.1)
    have hc : v1.groupCount = v.groupCount + 1 := by
      cases h2 with
      | absorbed => rfl
      | parsed => rfl
      | reparsed _ hst => rw [hv] at hst; cases hst
    obtain ⟨m1, m2, m3, m4⟩ := ih hi1 k1 (by rw [hc]; omega) hd.2 h
    refine ⟨m1, by rw [m2, hc, List.length_cons]; omega, m3, ?_⟩
    rw [fold_cons rfl k2]
    exact m4

theorem remarks_fold {limit : Nat} {ty : ReportType} {now : Option Nat} {ws : List Str} {n : Nat}
    {gs : List GroupInfo} {e : ReportError} (h : RemarksMeaning ty now ws n gs e) {v : Parser.Vars}
    (hv : Parser.InRemarks ty v.status) (hi : Parser.GroupsInv v.groups) (hn : reportHour v.md = now)
    (hc : Parser.LastClosed v.groups) (hl : v.groupCount + n < limit) :
    ∃ v', Parser.foldTokens limit ws v = .ok v' ∧ Done ty e (v.groups.reverse ++ gs) (v.groupCount + n) v' := by
  cases h with
  | @all ws items hd hdiv =>
    obtain ⟨v', h1, h2, h3, h4⟩ := fold_divided (limit := limit) (ty := ty) hdiv hv hn hl hd (hc.append _ _ _)
    refine ⟨v', h1, h4, h2.2.1, ?_, ?_⟩
    · rw [← h2.1]
      obtain ⟨-, -, ⟨-, e⟩ | ⟨-, e⟩⟩ := h2 <;> simp [Status.finalTransition, e]
    · rw [h2.part, h3]
      congr 2
      rw [← List.reverse_reverse (Parser.push _ _ _), Parser.push_reverse,
        Parser.attach_known (fun x hx => (hc x hx).1)]
  | @maintenance ws rest items hty hd hdiv =>
    subst hty
    obtain ⟨⟨s, t, er⟩, md, G, c⟩ := v
    obtain ⟨e1, e2, ⟨e3, -⟩ | ⟨-, e3⟩⟩ := hv
    · cases e3
    simp only at e1 e2 e3 hi hn hc hl
    subst e1 e2 e3
    obtain ⟨v', h1, h2, h3, h4⟩ := fold_divided (limit := limit) (ty := .METAR) hdiv
      (v := ⟨⟨.REMARK_METAR, .METAR, .NONE⟩, md, G, c⟩) ⟨rfl, rfl, Or.inl ⟨rfl, rfl⟩⟩ hn
      (by simp only [List.length_append, List.length_cons, List.length_nil]; omega) (by simp) (hc.append _ _ _)
    rw [Parser.foldTokens_append] at h1
    cases hf : Parser.foldTokens limit ws ⟨⟨.REMARK_METAR, .METAR, .NONE⟩, md, G, c⟩ with
    | error f => rw [hf] at h1; cases h1
    | ok v1 =>
      rw [hf] at h1
      simp only at h1
      obtain ⟨m1, m2, m3, m4⟩ := twin_fold .TAF ws (v := ⟨⟨.REMARK_METAR, .METAR, .NONE⟩, md, G, c⟩) hi rfl
        (by simp only; omega) hd hf
      simp only at m2
      have he : v1.status.isError = false := by rw [m1]; rfl
      obtain ⟨v2, k1, -, -⟩ := Parser.stepTok_spec (limit := limit) (tok := c!"$") m3 he
      rw [fold_cons he k1] at h1
      cases h1
      have hap : ∃ gs, Parser.appendToLastResultGroup v1.groups c!"$" .RMK v1.md = .ok (gs, false) := by
        obtain ⟨gs, b, a1, a2, -⟩ := Parser.append_cases m3 c!"$" .RMK v1.md
        obtain rfl := a2.inert (by simp [inertTexts])
        exact ⟨gs, a1⟩
      have hs := (twin_step (v := v1) m1 (by rw [m2]; omega) k1 .TAF).2 rfl hap
      refine ⟨{ v' with status := ⟨.ERROR, .TAF, .MAINTENANCE_INDICATOR_ALLOWED_IN_METAR_ONLY⟩ }, ?_, ?_, rfl, rfl, ?_⟩
      · rw [Parser.foldTokens_append, m4]
        exact fold_to_error rfl hs rfl
      · simp only [h4, List.length_append, List.length_cons, List.length_nil]
      · rw [appendToLast_end _ _ .RMK, h3]
        congr 2
        rw [← List.reverse_reverse (Parser.push _ _ _), Parser.push_reverse,
          Parser.attach_known (fun x hx => (hc x hx).1)]

/-! ### The body -/

/-- The parser where the body of a report begins. -/
structure Begin (ty : ReportType) (now : Option Nat) (v : Parser.Vars) : Prop where
  status : v.status = ⟨bodyBegin ty, ty, .NONE⟩
  closed : Parser.LastClosed v.groups
  hour : reportHour v.md = now
  inv : Parser.GroupsInv v.groups

theorem Begin.inBody {ty : ReportType} {now : Option Nat} {v : Parser.Vars} (h : Begin ty now v)
    (hty : ty = .METAR ∨ ty = .TAF) : Parser.InBody (bodyPart ty) v.status := by
  rw [h.status]
  rcases hty with rfl | rfl
  · exact ⟨rfl, Or.inl ⟨rfl, rfl, Or.inl rfl⟩⟩
  · exact ⟨rfl, Or.inr ⟨rfl, rfl, Or.inl rfl⟩⟩

theorem bodyPart_isBody {ty : ReportType} (hty : ty = .METAR ∨ ty = .TAF) : isBody (bodyPart ty) := by
  rcases hty with rfl | rfl
  · exact Or.inl rfl
  · exact Or.inr rfl

/-- The words of the body up to one which ends it, and this word. -/
theorem body_stop {limit : Nat} {ty : ReportType} (hty : ty = .METAR ∨ ty = .TAF) {now : Option Nat} {ws : List Str}
    {items : List (Group × List Str)} (hs : ∀ w ∈ ws, w ∉ stops (bodyPart ty)) (hd : Divided (bodyPart ty) ws items)
    {v : Parser.Vars} (hv : Begin ty now v) (hl : v.groupCount + ws.length + 1 < limit) {w : Str} {k : KeywordType}
    (hw : w ∈ stops (bodyPart ty)) (hk : IsKeyword (bodyPart ty) w k) :
    ∃ v1 v2, Parser.foldTokens limit ws v = .ok v1 ∧ Parser.stepTok limit w v1 = .ok v2 ∧
      Parser.InBody (bodyPart ty) v1.status ∧ (ws = [] → v1.status = v.status) ∧
      (ws ≠ [] → v1.status.state = .REPORT_BODY_METAR ∨ v1.status.state = .REPORT_BODY_TAF) ∧
      v2.status = v1.status.transition (getSyntaxGroup (.keyword ⟨k⟩)) ∧
      v2.groupCount = v.groupCount + ws.length + 1 ∧ reportHour v2.md = now ∧
      v2.groups.reverse = v.groups.reverse ++ entries (bodyPart ty) items ++ [⟨.keyword ⟨k⟩, bodyPart ty, w⟩] ∧
      Parser.LastClosed v2.groups ∧ Parser.GroupsInv v2.groups := by
  have hp := bodyPart_isBody hty
  obtain ⟨v1, h1, h2, h3, h4, h5⟩ := Parser.fold_cut (limit := limit)
    ((cut_iff_divided (md := {}) hp (Or.inr hw)).mpr hd) (hv.inBody hty) (by omega) hs (hv.closed.append _ _ _)
  have hg : GroupParser.parse w (bodyPart ty) v1.md = .ok (.keyword ⟨k⟩) :=
    C66_order_free _ _ _ 0 _ (Parser.keyword_recognised _ hk) (by
      rintro ⟨-, h, -⟩
      rcases hty with rfl | rfl <;> cases h)
  have hnr : (v1.status.transition (getSyntaxGroup (.keyword ⟨k⟩))).isReparseRequired = false := by
    by_contra hn
    simp only [Bool.not_eq_false, Status.isReparseRequired, beq_iff_eq] at hn
    obtain ⟨hn, -⟩ := Parser.transition_to_repeat hn
    obtain ⟨-, ⟨-, -, h | h⟩ | ⟨-, -, h | h⟩⟩ := h2 <;> rw [h] at hn <;> cases hn
  have hstep := step_word (limit := limit) (v := v1) h2.part h4 hg (by omega) hnr
  rw [Parser.addGroup_not_fallback (Parser.closed_keyword _).1] at hstep
  generalize hv2 : (Parser.Vars.mk _ _ _ _) = v2 at hstep
  have hf : Parser.foldTokens limit (ws ++ [w]) v = .ok v2 := by
    rw [Parser.foldTokens_append, h1]
    exact (fold_cons h2.noError hstep).trans rfl
  subst hv2
  refine ⟨v1, _, h1, hstep, h2, ?_, h3, rfl, by simp only; omega, ?_, ?_, last_closed (Parser.closed_keyword _), ?_⟩
  · rintro rfl
    cases h1
    rfl
  · rw [← hv.hour]
    refine fold_hour (ws ++ [w]) hv.inv ?_ hf
    rw [hv.status]
    rcases hty with rfl | rfl <;> simp [bodyBegin, Status.getReportPart]
  · simp only [List.reverse_cons]
    rw [Parser.push_reverse, Parser.attach_known (fun x hx => (hv.closed x hx).1)]
  · exact fold_inv (ws ++ [w]) hv.inv hf

theorem stop_keyword {ty : ReportType} (hty : ty = .METAR ∨ ty = .TAF) {w : Str} {k : KeywordType}
    (h : (w, k) ∈ [(c!"NIL", KeywordType.NIL), (c!"CNL", KeywordType.CNL), (c!"RMK", KeywordType.RMK)]) :
    w ∈ stops (bodyPart ty) ∧ IsKeyword (bodyPart ty) w k := by
  simp only [List.mem_cons, Prod.mk.injEq, List.not_mem_nil, or_false] at h
  rcases hty with rfl | rfl <;> rcases h with ⟨rfl, rfl⟩ | ⟨rfl, rfl⟩ | ⟨rfl, rfl⟩ <;>
    simp [stops, bodyPart, IsKeyword, keywords]

theorem body_fold {limit : Nat} {ty : ReportType} (hty : ty = .METAR ∨ ty = .TAF) {now : Option Nat} {ws : List Str}
    {n : Nat} {gs : List GroupInfo} {e : ReportError} (h : BodyMeaning ty now ws n gs e) {v : Parser.Vars}
    (hv : Begin ty now v) (hl : v.groupCount + n < limit) :
    ∃ v', Parser.foldTokens limit ws v = .ok v' ∧ Done ty e (v.groups.reverse ++ gs) (v.groupCount + n) v' := by
  have hp := bodyPart_isBody hty
  have hnoerr : v.status.isError = false := by rw [hv.status]; rfl
  cases h with
  | nothing =>
    refine ⟨v, rfl, rfl, by rw [hv.status], ?_, by simpa using hv.closed.append _ _ _⟩
    rw [hv.status]
    rcases hty with rfl | rfl <;> rfl
  | @nil ws n gs e ha =>
    obtain ⟨hm, hk⟩ := stop_keyword hty (w := c!"NIL") (k := .NIL) (by simp)
    obtain ⟨v1, v2, h1, h2, -, h4, -, h6, h7, h8, h9, h10, h11⟩ := body_stop (limit := limit) (ws := []) hty (by simp)
      .nil hv (by simp only [List.length_nil]; omega) hm hk
    cases h1
    have hst : v2.status = ⟨.NIL, ty, .NONE⟩ := by
      rw [h6, hv.status]
      rcases hty with rfl | rfl <;> rfl
    obtain ⟨v', k1, k2⟩ := after_fold (limit := limit) (Or.inl ⟨rfl, rfl⟩) ha hst h10
      (by rw [h7]; simp only [List.length_nil]; omega)
    refine ⟨v', by rw [fold_cons hnoerr h2]; exact k1, ?_⟩
    rw [h7, h9] at k2
    simpa [entries, Nat.add_assoc, Nat.add_comm 1] using k2
  | @cnl ws n gs e ht ha =>
    obtain ⟨hm, hk⟩ := stop_keyword hty (w := c!"CNL") (k := .CNL) (by simp)
    obtain ⟨v1, v2, h1, h2, -, h4, -, h6, h7, h8, h9, h10, h11⟩ := body_stop (limit := limit) (ws := []) hty (by simp)
      .nil hv (by simp only [List.length_nil]; omega) hm hk
    cases h1
    have hst : v2.status = ⟨.CNL, ty, .NONE⟩ := by
      rw [h6, hv.status, ht]
      rfl
    obtain ⟨v', k1, k2⟩ := after_fold (limit := limit) (Or.inr ⟨rfl, rfl⟩) ha hst h10
      (by rw [h7]; simp only [List.length_nil]; omega)
    refine ⟨v', by rw [fold_cons hnoerr h2]; exact k1, ?_⟩
    rw [h7, h9] at k2
    simpa [entries, Nat.add_assoc, Nat.add_comm 1] using k2
  | @cnlMetar ws ht =>
    obtain ⟨hm, hk⟩ := stop_keyword hty (w := c!"CNL") (k := .CNL) (by simp)
    obtain ⟨v1, v2, h1, h2, -, h4, -, h6, h7, h8, h9, h10, h11⟩ := body_stop (limit := limit) (ws := []) hty (by simp)
      .nil hv (by simp only [List.length_nil]; omega) hm hk
    cases h1
    have hst : v2.status = ⟨.ERROR, ty, .CNL_ALLOWED_IN_TAF_ONLY⟩ := by
      rw [h6, hv.status, hty.resolve_right ht]
      rfl
    refine ⟨v2, fold_to_error hnoerr h2 (by rw [hst]; rfl), by simpa using h7, by rw [hst], by rw [hst]; rfl, ?_⟩
    rw [h10.append]
    congr 2
    rw [← List.reverse_reverse v2.groups, h9]
    simp [entries]
  | @body ws items hne hs hd =>
    obtain ⟨v', k1, k2, k3, k4, k5⟩ := Parser.fold_cut (limit := limit)
      ((cut_iff_divided (md := {}) hp (Or.inl rfl)).mpr hd) (hv.inBody hty) hl hs (hv.closed.append _ _ _)
    refine ⟨v', k1, k5, inBody_type hty k2, ?_, ?_⟩
    · rw [← k2.1]
      rcases k3 hne with e | e <;> simp [Status.finalTransition, e]
    · rw [k2.part, k4]
      congr 2
      rw [← List.reverse_reverse (Parser.push _ _ _), Parser.push_reverse,
        Parser.attach_known (fun x hx => (hv.closed x hx).1)]
  | @ended ws rest items w k hne hs hd hwk =>
    obtain ⟨hm, hk⟩ := stop_keyword hty (w := w) (k := k) (by
      simp only [List.mem_cons, List.not_mem_nil, or_false] at hwk ⊢; tauto)
    obtain ⟨v1, v2, h1, h2, h3, -, h5, h6, h7, h8, h9, h10, h11⟩ := body_stop (limit := limit) hty hs hd hv (by omega) hm hk
    have hst : v2.status = ⟨.ERROR, ty, .UNEXPECTED_NIL_OR_CNL_IN_REPORT_BODY⟩ := by
      rw [h6, ← inBody_type hty h3]
      simp only [List.mem_cons, Prod.mk.injEq, List.not_mem_nil, or_false] at hwk
      rcases hvs : v1.status with ⟨s, t, e⟩
      rw [hvs] at h5
      rcases h5 hne with e | e <;> simp only at e <;> subst e <;> rcases hwk with ⟨rfl, rfl⟩ | ⟨rfl, rfl⟩ <;> rfl
    refine ⟨v2, ?_, by rw [h7]; omega, by rw [hst], by rw [hst]; rfl, ?_⟩
    · rw [Parser.foldTokens_append, h1]
      exact fold_to_error h3.noError h2 (by rw [hst]; rfl)
    · rw [h10.append]
      congr 2
      rw [← List.reverse_reverse v2.groups, h9]
      simp
  | @maintenance ws rest items ht hs hd =>
    subst ht
    obtain ⟨v1, v2, h1, h2, h3, h4, h5, h6, h7, h8, h9, h10, h11⟩ := body_stop (limit := limit) (w := c!"$")
      (k := .MAINTENANCE_INDICATOR) hty hs hd hv (by omega) (by simp [stops, bodyPart])
      (by simp [bodyPart, IsKeyword, keywords])
    have hst : v2.status = ⟨.ERROR, .TAF, .MAINTENANCE_INDICATOR_ALLOWED_IN_METAR_ONLY⟩ := by
      rw [h6, ← inBody_type hty h3]
      rcases hvs : v1.status with ⟨s, t, e⟩
      rw [hvs] at h3
      obtain ⟨-, ⟨h, -⟩ | ⟨-, -, h | h⟩⟩ := h3
      · cases h
      · simp only at h; subst h; rfl
      · simp only at h; subst h; rfl
    refine ⟨v2, ?_, by rw [h7]; omega, by rw [hst], by rw [hst]; rfl, ?_⟩
    · rw [Parser.foldTokens_append, h1]
      exact fold_to_error h3.noError h2 (by rw [hst]; rfl)
    · rw [h10.append]
      congr 2
      rw [← List.reverse_reverse v2.groups, h9]
      simp
  | @remarks ws rmk items n gs e hs hd hr =>
    obtain ⟨hm, hk⟩ := stop_keyword hty (w := c!"RMK") (k := .RMK) (by simp)
    obtain ⟨v1, v2, h1, h2, h3, h4, h5, h6, h7, h8, h9, h10, h11⟩ := body_stop (limit := limit) hty hs hd hv (by omega) hm hk
    have hst : Parser.InRemarks ty v2.status := by
      have h3' := h3
      have hit := inBody_type hty h3
      rw [h6]
      rcases hvs : v1.status with ⟨s, t, e⟩
      rw [hvs] at h3' hit
      simp only at hit
      subst hit
      obtain ⟨he, ⟨-, ht, h | h⟩ | ⟨-, ht, h | h⟩⟩ := h3' <;> simp only at he ht h <;> subst he h ht
      · exact ⟨rfl, rfl, Or.inl ⟨rfl, rfl⟩⟩
      · exact ⟨rfl, rfl, Or.inl ⟨rfl, rfl⟩⟩
      · exact ⟨rfl, rfl, Or.inr ⟨rfl, rfl⟩⟩
      · exact ⟨rfl, rfl, Or.inr ⟨rfl, rfl⟩⟩
    obtain ⟨v', k1, k2⟩ := remarks_fold (limit := limit) hr hst h11 h8 h10 (by rw [h7]; omega)
    refine ⟨v', ?_, ?_⟩
    · rw [Parser.foldTokens_append, h1]
      simp only
      rw [fold_cons h3.noError h2]
      exact k1
    · rw [h7, h9] at k2
      simpa [Nat.add_assoc] using k2

end Metaf.Props

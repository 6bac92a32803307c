import Verif.Spec.Outcome

/-!
The parser on the words of a header, one after the other.
-/

set_option linter.unusedSectionVars false

namespace Metaf.Props

open Metaf Metaf.Spec

variable [FloatIeee]

/-! ### Words of the header -/

theorem word_header {s : Str} {g : Group} (h : HeaderWord s g) (md : ReportMetadata) :
    ∃ i, recognise i s .HEADER md = .ok (some g) := by
  cases h with
  | keyword hk => exact ⟨0, Parser.keyword_recognised md hk⟩
  | location hl => exact ⟨1, by simp [recognise, (C49_location s .HEADER ⟨s⟩).mpr ⟨rfl, rfl, hl⟩]⟩
  | @time d h m hd hh hm =>
    refine ⟨2, ?_⟩
    simp only [recognise, (C49_time (timeText d h m) .HEADER ⟨⟨some d, h, m⟩⟩).mpr
      ⟨rfl, d, h, m, hd, hh, hm, rfl, rfl⟩]
    rfl
  | @period d h d' h' h1 h2 h3 h4 =>
    refine ⟨3, ?_⟩
    simp only [recognise, parse_word (w := .span d h d' h') (p := .HEADER) ⟨h1, h2, h3, h4⟩ (Or.inr rfl)]
    rfl

theorem word_parse {s : Str} {g : Group} (h : HeaderWord s g) (md : ReportMetadata) :
    GroupParser.parse s .HEADER md = .ok g := by
  obtain ⟨i, hi⟩ := word_header h md
  exact C66_order_free s .HEADER md i g hi (fun h => nomatch h.2.1)

theorem word_closed {s : Str} {g : Group} (h : HeaderWord s g) : Parser.Closed g := by
  obtain ⟨i, hi⟩ := word_header h {}
  exact (header_word hi).2

theorem entry_parse {w : Str} {x : GroupInfo} (h : HeaderEntry w x) (md : ReportMetadata) :
    ∃ g, GroupParser.parse w .HEADER md = .ok g ∧ x = ⟨g, .HEADER, w⟩ := by
  cases h with
  | said h => exact ⟨_, word_parse h md, rfl⟩
  | unknown h =>
    refine ⟨_, (C66_unknown w .HEADER md).mpr fun i g hi => ?_, rfl⟩
    exact h g (header_word hi).1

theorem entry_exists (w : Str) : ∃ x, HeaderEntry w x := by
  by_cases h : ∃ g, HeaderWord w g
  · obtain ⟨g, h⟩ := h
    exact ⟨_, .said h⟩
  · exact ⟨_, .unknown fun g hg => h ⟨g, hg⟩⟩

theorem after_parse {w : Str} {x : GroupInfo} (h : AfterEntry w x) (md : ReportMetadata) :
    ∃ g, GroupParser.parse w .UNKNOWN md = .ok g ∧ x = ⟨g, .UNKNOWN, w⟩ ∧
      (Parser.Closed g ∨ g = .unknown {}) := by
  cases h with
  | said h =>
    exact ⟨_, C66_order_free w .UNKNOWN md 0 _ (Parser.keyword_recognised md h) (fun h => nomatch h.2.1), rfl,
      Or.inl (Parser.closed_keyword _)⟩
  | unknown h =>
    refine ⟨_, (C66_unknown w .UNKNOWN md).mpr fun i g hi => ?_, rfl, Or.inr rfl⟩
    obtain ⟨k, hk, -⟩ := after_word hi
    exact h k hk

theorem after_exists (w : Str) : ∃ x, AfterEntry w x := by
  by_cases h : ∃ k, IsKeyword .UNKNOWN w k
  · obtain ⟨g, h⟩ := h
    exact ⟨_, .said h⟩
  · exact ⟨_, .unknown fun g hg => h ⟨g, hg⟩⟩

/-- What the group of a header word is to the grammar says what word it is. -/
theorem header_syntax {w : Str} {md : ReportMetadata} {g : Group} (h : GroupParser.parse w .HEADER md = .ok g) :
    match getSyntaxGroup g with
    | .METAR => w = c!"METAR"
    | .SPECI => w = c!"SPECI"
    | .TAF => w = c!"TAF"
    | .COR => w = c!"COR"
    | .AMD => w = c!"AMD"
    | .NIL => w = c!"NIL"
    | .LOCATION => LocationWord w
    | .REPORT_TIME => TimeWord w
    | .TIME_SPAN => PeriodWord w
    | _ => True := by
  rcases (GroupParser.parse_first h).2 with h2 | rfl
  · obtain ⟨hw, -⟩ := header_word h2
    cases hw with
    | @keyword s k hk =>
      obtain ⟨ps, hm, hps⟩ := hk
      simp only [keywords, List.mem_cons, Prod.mk.injEq, List.not_mem_nil, or_false] at hm
      rcases hm with h | h | h | h | h | h | h | h | h | h | h | h | h | h | h | h <;>
        obtain ⟨rfl, rfl, rfl⟩ := h <;> simp [getSyntaxGroup]
    | location hl => simpa [getSyntaxGroup] using hl
    | time hd hh hm => simpa [getSyntaxGroup] using ⟨_, _, _, hd, hh, hm, rfl⟩
    | period k1 k2 k3 k4 => exact ⟨_, _, _, _, k1, k2, k3, k4, rfl⟩
  · trivial

/-! ### One word -/

/-- A word which the last group does not take. -/
theorem step_word {limit : Nat} {v : Parser.Vars} {w : Str} {gs : List GroupInfo} {g : Group} {p : ReportPart}
    (hp : v.status.getReportPart = p)
    (ha : Parser.appendToLastResultGroup v.groups w p v.md = .ok (gs, false))
    (hg : GroupParser.parse w p v.md = .ok g) (hl : v.groupCount + 1 < limit)
    (hs : (v.status.transition (getSyntaxGroup g)).isReparseRequired = false) :
    Parser.stepTok limit w v = .ok
      { status := v.status.transition (getSyntaxGroup g), md := Parser.updateMetadata g v.md,
        groups := Parser.addGroupToResult gs g p w, groupCount := v.groupCount + 1 } := by
  have hlt : ¬ (v.groupCount + 1 ≥ limit) := by omega
  subst hp
  simp only [Parser.stepTok, Parser.step, ha, Parser.parseGroup, hg, Parser.countGroup, if_neg hlt, hs,
    Bool.false_and, Bool.false_eq_true, if_false]

theorem fold_cons {limit : Nat} {w : Str} {ws : List Str} {v v' : Parser.Vars} (he : v.status.isError = false)
    (h : Parser.stepTok limit w v = .ok v') :
    Parser.foldTokens limit (w :: ws) v = Parser.foldTokens limit ws v' := by
  simp only [Parser.foldTokens, he, Bool.false_eq_true, if_false, h]

theorem last_closed {x : GroupInfo} {gs : List GroupInfo} (h : Parser.Closed x.group) :
    Parser.LastClosed (x :: gs) := by
  intro y hy
  simp only [List.head?_cons, Option.mem_def, Option.some.injEq] at hy
  subst hy
  exact h

/-! ### The header -/

/-- The state of the parser at a place of the header. -/
def stateAt : Place → State
  | .start => .REPORT_TYPE_OR_LOCATION
  | .type => .CORRECTION
  | .corrected => .LOCATION
  | .location => .REPORT_TIME
  | .time => .TIME_SPAN

/-- The parser after the words `hs` of a header in the state `s`. -/
structure At (s : State) (ty : ReportType) (hs : Words) (v : Parser.Vars) : Prop where
  status : v.status = ⟨s, ty, .NONE⟩
  groups : v.groups.reverse = headerEntries hs
  closed : Parser.LastClosed v.groups
  count : v.groupCount = hs.length
  hour : reportHour v.md = headerHour hs

theorem headerHour_append (hs : Words) (w : Str) (g : Group) :
    headerHour (hs ++ [(w, g)]) = (headerHour hs).or (groupHour g) := by
  unfold headerHour
  rw [List.findSome?_append]
  congr 1
  cases g <;> rfl

/-- One more word of the header. -/
theorem At.next {limit : Nat} {s s' : State} {ty ty' : ReportType} {hs : Words} {v : Parser.Vars} {w : Str} {g : Group}
    (h : At s ty hs v) (hp : (⟨s, ty, .NONE⟩ : Status).getReportPart = .HEADER) (hw : HeaderWord w g)
    (hl : hs.length + 1 < limit)
    (ht : (⟨s, ty, .NONE⟩ : Status).transition (getSyntaxGroup g) = ⟨s', ty', .NONE⟩)
    (hs' : s' ≠ .REPORT_BODY_BEGIN_METAR_REPEAT_PARSE)
    (hh : headerHour hs = none ∨ groupHour g = none) :
    ∃ v', Parser.foldTokens limit [w] v = .ok v' ∧ At s' ty' (hs ++ [(w, g)]) v' := by
  have hstep := step_word (limit := limit) (v := v) (p := .HEADER) (by rw [h.status]; exact hp)
    (h.closed.append _ _ _) (word_parse hw v.md) (by rw [h.count]; exact hl)
    (by rw [h.status, ht]; simp [Status.isReparseRequired, hs'])
  have hg := word_closed hw
  refine ⟨_, (fold_cons (by rw [h.status]; rfl) hstep).trans rfl, ?_, ?_, ?_, ?_, ?_⟩
  · rw [h.status, ht]
  · simp only [Parser.addGroup_not_fallback hg.1, List.reverse_cons, h.groups, headerEntries, List.map_append,
      List.map_cons, List.map_nil]
  · simp only [Parser.addGroup_not_fallback hg.1]
    exact last_closed hg
  · simp only [List.length_append, List.length_cons, List.length_nil, h.count]
  · rw [update_hour, headerHour_append, h.hour]
    rcases hh with e | e <;> rw [e] <;> simp

theorem opening_hour {p : Place} {ty : ReportType} {hs : Words} (h : Opening p ty hs) (hp : p ≠ .time) :
    headerHour hs = none := by
  induction h with
  | start | metar | speci | taf => rfl
  | cor _ ih => rw [headerHour_append, ih (by simp)]; rfl
  | amd _ ih => rw [headerHour_append, ih (by simp)]; rfl
  | location hp _ _ ih =>
    rw [headerHour_append, ih (by rintro rfl; simp at hp)]
    rfl
  | time => exact absurd rfl hp

theorem opening_type {p : Place} {ty : ReportType} {hs : Words} (h : Opening p ty hs) :
    match p with
    | .start => ty = .UNKNOWN
    | .type | .corrected => ty = .METAR ∨ ty = .TAF
    | .location => ty = .UNKNOWN ∨ ty = .METAR ∨ ty = .TAF
    | .time => ty = .UNKNOWN ∨ ty = .TAF := by
  induction h with
  | start | metar | speci | taf => simp
  | cor _ ih => exact ih
  | amd _ ih => exact ih
  | location hp _ _ ih =>
    rcases hp with rfl | rfl | rfl
    · exact Or.inl ih
    · exact Or.inr ih
    · exact Or.inr ih
  | time _ hn _ _ _ ih =>
    rcases ih with rfl | rfl | rfl
    · exact Or.inl rfl
    · exact absurd rfl hn
    · exact Or.inr rfl

theorem fold_snoc {limit : Nat} {us : List Str} {w : Str} {v v1 v2 : Parser.Vars}
    (h1 : Parser.foldTokens limit us v = .ok v1) (h2 : Parser.foldTokens limit [w] v1 = .ok v2) :
    Parser.foldTokens limit (us ++ [w]) v = .ok v2 := by
  rw [Parser.foldTokens_append, h1]
  exact h2

theorem wordsOf_append (hs : Words) (w : Str) (g : Group) : wordsOf (hs ++ [(w, g)]) = wordsOf hs ++ [w] := by
  simp [wordsOf]

theorem keyword_word {w : Str} {k : KeywordType} (ps : List ReportPart) (h : (w, k, ps) ∈ keywords)
    (h' : ReportPart.HEADER ∈ ps) : HeaderWord w (.keyword ⟨k⟩) := .keyword ⟨ps, h, h'⟩

theorem at_start : At .REPORT_TYPE_OR_LOCATION .UNKNOWN [] {} :=
  ⟨rfl, rfl, by intro x hx; simp at hx, rfl, rfl⟩

/-- The parser on the beginning of a header. -/
theorem opening_fold {limit : Nat} {p : Place} {ty : ReportType} {hs : Words} (h : Opening p ty hs)
    (hl : hs.length < limit) :
    ∃ v, Parser.foldTokens limit (wordsOf hs) {} = .ok v ∧ At (stateAt p) ty hs v := by
  have first : ∀ {w : Str} {k : KeywordType} {ty : ReportType}, HeaderWord w (.keyword ⟨k⟩) → 1 < limit →
      (⟨.REPORT_TYPE_OR_LOCATION, .UNKNOWN, .NONE⟩ : Status).transition (getSyntaxGroup (.keyword ⟨k⟩)) =
        ⟨.CORRECTION, ty, .NONE⟩ →
      ∃ v, Parser.foldTokens limit [w] {} = .ok v ∧ At .CORRECTION ty [(w, .keyword ⟨k⟩)] v := by
    intro w k ty hw hl ht
    exact at_start.next rfl hw (by simpa using hl) ht (by simp) (Or.inl rfl)
  induction h with
  | start => exact ⟨_, rfl, at_start⟩
  | metar => exact first (keyword_word [.HEADER] (by simp [keywords]) (by simp)) (by simpa using hl) rfl
  | speci => exact first (keyword_word [.HEADER] (by simp [keywords]) (by simp)) (by simpa using hl) rfl
  | taf => exact first (keyword_word [.HEADER] (by simp [keywords]) (by simp)) (by simpa using hl) rfl
  | @cor ty hs ho ih =>
    simp only [List.length_append, List.length_cons, List.length_nil] at hl
    obtain ⟨v, h1, h2⟩ := ih (by omega)
    obtain ⟨v', h3, h4⟩ := h2.next (limit := limit) (w := c!"COR") (g := .keyword ⟨.COR⟩) (s' := .LOCATION) (ty' := ty) rfl
      (keyword_word [.HEADER, .METAR] (by simp [keywords]) (by simp)) (by omega) rfl (by simp)
      (Or.inl (opening_hour ho (by simp)))
    rw [wordsOf_append]
    exact ⟨v', fold_snoc h1 h3, h4⟩
  | @amd hs ho ih =>
    simp only [List.length_append, List.length_cons, List.length_nil] at hl
    obtain ⟨v, h1, h2⟩ := ih (by omega)
    obtain ⟨v', h3, h4⟩ := h2.next (limit := limit) (w := c!"AMD") (g := .keyword ⟨.AMD⟩) (s' := .LOCATION) (ty' := .TAF) rfl
      (keyword_word [.HEADER] (by simp [keywords]) (by simp)) (by omega) rfl (by simp)
      (Or.inl (opening_hour ho (by simp)))
    rw [wordsOf_append]
    exact ⟨v', fold_snoc h1 h3, h4⟩
  | @location p ty hs l hp ho hw ih =>
    simp only [List.length_append, List.length_cons, List.length_nil] at hl
    obtain ⟨v, h1, h2⟩ := ih (by omega)
    obtain ⟨v', h3, h4⟩ := h2.next (limit := limit) (w := l) (g := .location ⟨l⟩) (s' := .REPORT_TIME) (ty' := ty)
      (by rcases hp with rfl | rfl | rfl <;> rfl) (.location hw) (by omega)
      (by rcases hp with rfl | rfl | rfl <;> rfl) (by simp)
      (Or.inl (opening_hour ho (by rcases hp with rfl | rfl | rfl <;> simp)))
    rw [wordsOf_append]
    exact ⟨v', fold_snoc h1 h3, h4⟩
  | @time ty hs d h m ho hn hd hh hm ih =>
    simp only [List.length_append, List.length_cons, List.length_nil] at hl
    obtain ⟨v, h1, h2⟩ := ih (by omega)
    obtain ⟨v', h3, h4⟩ := h2.next (limit := limit) (w := timeText d h m) (g := .reportTime ⟨⟨some d, h, m⟩⟩)
      (s' := .TIME_SPAN) (ty' := ty) rfl (.time hd hh hm) (by omega)
      (by simp [Status.transition, Status.transitionFromReportTime, getSyntaxGroup, stateAt, hn, Status.setState])
      (by simp) (Or.inl (opening_hour ho (by simp)))
    rw [wordsOf_append]
    exact ⟨v', fold_snoc h1 h3, h4⟩

/-- The state in which the body begins. -/
def bodyBegin : ReportType → State
  | .TAF => .REPORT_BODY_BEGIN_TAF
  | _ => .REPORT_BODY_BEGIN_METAR

theorem full_type {ty : ReportType} {hs : Words} (h : FullHeader ty hs) : ty = .METAR ∨ ty = .TAF := by
  cases h <;> simp

/-- The parser on a complete header. -/
theorem full_fold {limit : Nat} {ty : ReportType} {hs : Words} (h : FullHeader ty hs) (hl : hs.length < limit) :
    ∃ v, Parser.foldTokens limit (wordsOf hs) {} = .ok v ∧ At (bodyBegin ty) ty hs v := by
  cases h with
  | @metar hs d h m ho hd hh hm =>
    simp only [List.length_append, List.length_cons, List.length_nil] at hl
    obtain ⟨v, h1, h2⟩ := opening_fold ho (limit := limit) (by omega)
    obtain ⟨v', h3, h4⟩ := h2.next (limit := limit) (s' := .REPORT_BODY_BEGIN_METAR) (ty' := .METAR) rfl
      (.time hd hh hm) (by omega) rfl (by simp) (Or.inl (opening_hour ho (by simp)))
    rw [wordsOf_append]
    exact ⟨v', fold_snoc h1 h3, h4⟩
  | @taf hs d h d' h' ho k1 k2 k3 k4 =>
    simp only [List.length_append, List.length_cons, List.length_nil] at hl
    obtain ⟨v, h1, h2⟩ := opening_fold ho (limit := limit) (by omega)
    obtain ⟨v', h3, h4⟩ := h2.next (limit := limit) (s' := .REPORT_BODY_BEGIN_TAF) (ty' := .TAF) rfl
      (.period k1 k2 k3 k4) (by omega) rfl (by simp) (Or.inr rfl)
    rw [wordsOf_append]
    exact ⟨v', fold_snoc h1 h3, h4⟩
  | @tafTime ty hs d h d' h' ho k1 k2 k3 k4 =>
    simp only [List.length_append, List.length_cons, List.length_nil] at hl
    obtain ⟨v, h1, h2⟩ := opening_fold ho (limit := limit) (by omega)
    obtain ⟨v', h3, h4⟩ := h2.next (limit := limit) (s' := .REPORT_BODY_BEGIN_TAF) (ty' := .TAF) rfl
      (.period k1 k2 k3 k4) (by omega) rfl (by simp) (Or.inr rfl)
    rw [wordsOf_append]
    exact ⟨v', fold_snoc h1 h3, h4⟩

/-! ### A word which cannot follow -/

theorem wrong_transition {p : Place} {ty : ReportType} {w : Str} {e : ReportError} (h : Wrong p ty w e)
    {md : ReportMetadata} {g : Group} (hg : GroupParser.parse w .HEADER md = .ok g) :
    (⟨stateAt p, ty, .NONE⟩ : Status).transition (getSyntaxGroup g) = ⟨.ERROR, ty, e⟩ := by
  have hs := header_syntax hg
  cases h with
  | start h1 h2 =>
    simp only [List.mem_cons, List.not_mem_nil, or_false, not_or] at h1
    cases e : getSyntaxGroup g <;> rw [e] at hs <;> first
      | rfl
      | exact absurd hs h2
      | exact absurd hs h1.1
      | exact absurd hs h1.2.1
      | exact absurd hs h1.2.2
  | type h1 h2 =>
    simp only [List.mem_cons, List.not_mem_nil, or_false, not_or] at h1
    cases e : getSyntaxGroup g <;> rw [e] at hs <;> first
      | rfl
      | exact absurd hs h2
      | exact absurd hs h1.1
      | exact absurd hs h1.2
  | amd h1 =>
    have : GroupParser.parse c!"AMD" .HEADER md = .ok (.keyword ⟨.AMD⟩) :=
      word_parse (keyword_word [.HEADER] (by simp [keywords]) (by simp)) md
    rw [this] at hg
    cases hg
    simp [Status.transition, Status.transitionFromCorrecton, getSyntaxGroup, stateAt, h1, Status.setState, Status.setError]
  | corrected h1 =>
    cases e : getSyntaxGroup g <;> rw [e] at hs <;> first
      | rfl
      | exact absurd hs h1
  | location h1 h2 h3 =>
    cases e : getSyntaxGroup g <;> rw [e] at hs <;> first
      | rfl
      | exact absurd hs h1
      | exact absurd hs h2
      | (have : ty ≠ .TAF := fun e => h3 e hs
         simp [Status.transition, Status.transitionFromReportTime, stateAt, this, Status.setError])
  | time h1 h2 =>
    cases e : getSyntaxGroup g <;> rw [e] at hs <;> first
      | rfl
      | exact absurd hs h1
      | exact absurd hs h2

end Metaf.Props

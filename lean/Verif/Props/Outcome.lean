import Verif.Proofs.OutcomeExists
import Verif.Props.Metadata

/-!
C84: the result of parsing, for every text and every limit, is the one the words of the text mean.
C85: the metadata of every result is read off its groups, its type and its error.
-/

set_option linter.unusedSectionVars false

namespace Metaf.Props

open Metaf Metaf.Spec

variable [FloatIeee]

/-! ### C84 -/

theorem done_unique {ty ty' : ReportType} {e e' : ReportError} {E E' : List GroupInfo} {n n' : Nat} {v : Parser.Vars}
    (h : Done ty e E n v) (h' : Done ty' e' E' n' v) : E = E' ∧ ty = ty' ∧ e = e' := by
  refine ⟨?_, h.type.symm.trans h'.type, h.error.symm.trans h'.error⟩
  have := h.flush.symm.trans h'.flush
  simpa using this

/-- C84. Every list of words has an outcome, with every limit. -/
theorem C84_exists (ws : List Str) (limit : Nat) : ∃ gs ty e, Outcome ws limit gs ty e := outcome_exists ws limit

/-- C84. It has only one. -/
theorem C84_unique {ws : List Str} {limit : Nat} {gs gs' : List GroupInfo} {ty ty' : ReportType} {e e' : ReportError}
    (h : Outcome ws limit gs ty e) (h' : Outcome ws limit gs' ty' e') : gs = gs' ∧ ty = ty' ∧ e = e' := by
  obtain ⟨v, n, h1, h2⟩ := outcome_fold h
  obtain ⟨v', n', h1', h2'⟩ := outcome_fold h'
  rw [h1] at h1'
  obtain rfl := Except.ok.inj h1'
  exact done_unique h2 h2'

/-- C84. The words of a report have only one meaning. -/
theorem C84_meaning_unique {ws : List Str} {n n' : Nat} {gs gs' : List GroupInfo} {ty ty' : ReportType}
    {e e' : ReportError} (h : Meaning ws n gs ty e) (h' : Meaning ws n' gs' ty' e') :
    n = n' ∧ gs = gs' ∧ ty = ty' ∧ e = e' := by
  obtain ⟨v, h1, h2⟩ := meaning_fold (limit := max n n' + 1) h (by omega)
  obtain ⟨v', h1', h2'⟩ := meaning_fold (limit := max n n' + 1) h' (by omega)
  rw [h1] at h1'
  obtain rfl := Except.ok.inj h1'
  exact ⟨h2.count.symm.trans h2'.count, done_unique h2 h2'⟩

/-- C84. Parsing gives the entries, the type and the error which the words of the text mean. -/
theorem C84_outcome {report : Str} {ws : List Str} {limit : Nat} (ht : Groups report ws) {gs : List GroupInfo}
    {ty : ReportType} {e : ReportError} :
    (∃ r, Result report limit r ∧ r.groups = gs ∧ r.reportMetadata.type = ty ∧ r.reportMetadata.error = e) ↔
      Outcome ws limit gs ty e := by
  have key : ∀ {gs : List GroupInfo} {ty : ReportType} {e : ReportError}, Outcome ws limit gs ty e →
      ∃ r, Result report limit r ∧ r.groups = gs ∧ r.reportMetadata.type = ty ∧ r.reportMetadata.error = e := by
    intro gs ty e h
    obtain ⟨v, n, h1, h2⟩ := outcome_fold h
    rw [← tokens_of_groups ht] at h1
    refine ⟨_, finish_of h1 h2.flush, List.reverse_reverse _, ?_, h2.error⟩
    rw [← h2.type]
    simp only [Parser.finalMd, Status.finalTransition]
    split <;> rfl
  refine ⟨?_, key⟩
  rintro ⟨r, hr, rfl, rfl, rfl⟩
  obtain ⟨gs', ty', e', h⟩ := C84_exists ws limit
  obtain ⟨r', hr', rfl, rfl, rfl⟩ := key h
  rwa [result_unique hr hr' rfl]

/-! ### C85 -/

/-- The first of the entries which says something. -/
def firstSaid {α : Type} (f : GroupInfo → Option α) (gs : List GroupInfo) : Option α := gs.findSome? f

/-- The last of the entries which says something. -/
def lastSaid {α : Type} (f : GroupInfo → Option α) (gs : List GroupInfo) : Option α := gs.reverse.findSome? f

/-- Whether a keyword is among the entries. -/
def hasWord (k : KeywordType) (gs : List GroupInfo) : Bool := gs.any fun x => decide (x.group = .keyword ⟨k⟩)

/-- The number of the correction a text like `CCA` says. -/
def correctionOf (x : GroupInfo) : Option Nat :=
  if IsCorrectionMark x.group then some ((x.rawString.getLastD 'A').toNat - 'A'.toNat + 1) else none

/-- The two times of the period of a forecast. -/
def periodOf (x : GroupInfo) : Option (Option MetafTime × Option MetafTime) :=
  match x.group with
  | .trend t => if elementOf x.group = .span then some (t.tFrom, t.tTill) else none
  | _ => none

/-- The metadata of a report with the entries `gs`, the type `ty` and the error `e`. -/
def recordOf (gs : List GroupInfo) (ty : ReportType) (e : ReportError) : ReportMetadata :=
  { type := ty, error := e,
    reportTime := lastSaid (fun x => timeValue x.group) gs,
    icaoLocation := (lastSaid (fun x => locationText x.group) gs).getD [],
    isSpeci := hasWord .SPECI gs, isNospeci := hasWord .NOSPECI gs, isAutomated := hasWord .AUTO gs,
    isAo1 := hasWord .AO1 gs, isAo1a := hasWord .AO1A gs, isAo2 := hasWord .AO2 gs, isAo2a := hasWord .AO2A gs,
    isNil := hasWord .NIL gs, isCancelled := hasWord .CNL gs, isAmended := hasWord .AMD gs,
    isCorrectional := hasWord .COR gs || gs.any fun x => decide (IsCorrectionMark x.group),
    correctionNumber := some ((lastSaid correctionOf gs).getD 0),
    maintenanceIndicator := hasWord .MAINTENANCE_INDICATOR gs,
    timeSpanFrom := (firstSaid periodOf gs).bind Prod.fst,
    timeSpanUntil := (firstSaid periodOf gs).bind Prod.snd }

theorem last_cases {α : Type} (f : GroupInfo → Option α) (gs : List GroupInfo) :
    (lastSaid f gs = none ∧ ∀ x ∈ gs, f x = none) ∨
    ∃ a pre x post, lastSaid f gs = some a ∧ gs = pre ++ x :: post ∧ f x = some a ∧ ∀ y ∈ post, f y = none := by
  unfold lastSaid
  induction gs using List.reverseRecOn with
  | nil => left; simp
  | append_singleton gs x ih =>
    rw [List.reverse_append, List.reverse_singleton, List.singleton_append, List.findSome?_cons]
    cases hx : f x with
    | some a => exact Or.inr ⟨a, gs, x, [], rfl, rfl, hx, by simp⟩
    | none =>
      rcases ih with ⟨h1, h2⟩ | ⟨a, pre, y, post, h1, rfl, h3, h4⟩
      · left
        refine ⟨h1, ?_⟩
        intro y hy
        rcases List.mem_append.mp hy with hy | hy
        · exact h2 y hy
        · simp only [List.mem_singleton] at hy
          rw [hy, hx]
      · right
        refine ⟨a, pre, y, post ++ [x], h1, by simp, h3, ?_⟩
        intro z hz
        rcases List.mem_append.mp hz with hz | hz
        · exact h4 z hz
        · simp only [List.mem_singleton] at hz
          rw [hz, hx]

theorem first_cases {α : Type} (f : GroupInfo → Option α) (gs : List GroupInfo) :
    (firstSaid f gs = none ∧ ∀ x ∈ gs, f x = none) ∨
    ∃ a pre x post, firstSaid f gs = some a ∧ gs = pre ++ x :: post ∧ f x = some a ∧ ∀ y ∈ pre, f y = none := by
  unfold firstSaid
  cases h : gs.findSome? f with
  | none => exact Or.inl ⟨rfl, by simpa using h⟩
  | some a =>
    obtain ⟨pre, x, post, h1, h2, h3⟩ := List.findSome?_eq_some_iff.mp h
    exact Or.inr ⟨a, pre, x, post, rfl, h1, h2, h3⟩

theorem says_iff {r : ParseResult} {k : KeywordType} {b : Bool} (h : b = true ↔ HasKeyword r k) : b = hasWord k r.groups := by
  have : hasWord k r.groups = true ↔ HasKeyword r k := by simp [hasWord, HasKeyword]
  rw [Bool.eq_iff_iff, h, this]

/-- C85. The metadata of every result is what its entries, its type and its error say. -/
theorem C85_record {report : Str} {limit : Nat} {r : ParseResult} (hr : Result report limit r) :
    r.reportMetadata = recordOf r.groups r.reportMetadata.type r.reportMetadata.error := by
  obtain ⟨f1, f2, f3, f4, f5, f6, f7, f8, f9, f10, f11⟩ := C13_flags report limit r hr
  have hc := C13_correctional report limit r hr
  obtain ⟨n1, n2⟩ := C13_correction_number report limit r hr
  obtain ⟨l1, l2, t1, t2⟩ := C14_location_time report limit r hr
  obtain ⟨s1, s2⟩ := C15_first_span report limit r hr
  have e1 : r.reportMetadata.reportTime = lastSaid (fun x => timeValue x.group) r.groups := by
    rcases last_cases (fun x => timeValue x.group) r.groups with ⟨h1, h2⟩ | ⟨a, pre, x, post, h1, h2, h3, h4⟩
    · rw [h1, t1 h2]
    · rw [h1, t2 pre x post a h2 h3 h4]
  have e2 : r.reportMetadata.icaoLocation = (lastSaid (fun x => locationText x.group) r.groups).getD [] := by
    rcases last_cases (fun x => locationText x.group) r.groups with ⟨h1, h2⟩ | ⟨a, pre, x, post, h1, h2, h3, h4⟩
    · rw [h1, l1 h2]
      rfl
    · rw [h1, (l2 pre x post a h2 h3 h4).1]
      rfl
  have e3 : r.reportMetadata.isCorrectional =
      (hasWord .COR r.groups || r.groups.any fun x => decide (IsCorrectionMark x.group)) := by
    rw [Bool.eq_iff_iff, hc, Bool.or_eq_true, List.any_eq_true]
    simp only [decide_eq_true_eq, hasWord, List.any_eq_true, HasKeyword]
  have e4 : r.reportMetadata.correctionNumber = some ((lastSaid correctionOf r.groups).getD 0) := by
    have none_iff : ∀ x, correctionOf x = none → ¬ IsCorrectionMark x.group := by
      intro x hx hm
      simp [correctionOf, hm] at hx
    rcases last_cases correctionOf r.groups with ⟨h1, h2⟩ | ⟨a, pre, x, post, h1, h2, h3, h4⟩
    · rw [h1, n1 fun x hx => none_iff x (h2 x hx)]
      rfl
    · have hm : IsCorrectionMark x.group := by
        by_contra hn
        simp [correctionOf, hn] at h3
      obtain ⟨c, -, -, hc, hn⟩ := n2 pre x post h2 hm fun y hy => none_iff y (h4 y hy)
      rw [h1, hn]
      simp only [correctionOf, hm, if_true, hc, Option.some.injEq] at h3
      rw [← h3]
      rfl
  have e5 : r.reportMetadata.timeSpanFrom = (firstSaid periodOf r.groups).bind Prod.fst ∧
      r.reportMetadata.timeSpanUntil = (firstSaid periodOf r.groups).bind Prod.snd := by
    have hel : ∀ x : GroupInfo, periodOf x = none → elementOf x.group ≠ .span := by
      intro x h hs
      unfold periodOf at h
      cases hg : x.group with
      | trend t => rw [hg] at h hs; simp [hs] at h
      | keyword k =>
        rw [hg] at hs
        obtain ⟨k⟩ := k
        cases k <;> cases hs
      | _ => rw [hg] at hs; simp [elementOf] at hs
    rcases first_cases periodOf r.groups with ⟨h1, h2⟩ | ⟨a, pre, x, post, h1, h2, h3, h4⟩
    · rw [h1]
      exact s1 fun x hx => hel x (h2 x hx)
    · rw [h1]
      unfold periodOf at h3
      split at h3
      · rename_i t hg
        split at h3
        · rename_i hs
          cases h3
          obtain ⟨k1, k2, -⟩ := s2 pre x post t h2 hg hs fun y hy => hel y (h4 y hy)
          exact ⟨k1, k2⟩
        · cases h3
      · cases h3
  have g1 := says_iff f1
  have g2 := says_iff f2
  have g3 := says_iff f3
  have g4 := says_iff f4
  have g5 := says_iff f5
  have g6 := says_iff f6
  have g7 := says_iff f7
  have g8 := says_iff f8
  have g9 := says_iff f9
  have g10 := says_iff f10
  have g11 := says_iff f11
  unfold recordOf
  rw [← g1, ← g2, ← g3, ← g4, ← g5, ← g6, ← g7, ← g8, ← g9, ← g10, ← g11, ← e1, ← e2, ← e3, ← e4, ← e5.1, ← e5.2]

/-- C85. The whole result is determined by the words of the report and the limit. -/
theorem C85_result {report : Str} {ws : List Str} {limit : Nat} (ht : Groups report ws) {gs : List GroupInfo}
    {ty : ReportType} {e : ReportError} (h : Outcome ws limit gs ty e) :
    Result report limit ⟨recordOf gs ty e, gs⟩ := by
  obtain ⟨⟨md, gs'⟩, hr, rfl, rfl, rfl⟩ := (C84_outcome ht).mpr h
  have := C85_record hr
  simp only at this ⊢
  rwa [← this]

/-! ### Examples -/

theorem example_header : FullHeader .METAR [(c!"METAR", .keyword ⟨.METAR⟩), (c!"ULLI", .location ⟨c!"ULLI"⟩),
    (c!"112530Z", .reportTime ⟨⟨some 11, 25, 30⟩⟩)] :=
  .metar (hs := [(c!"METAR", .keyword ⟨.METAR⟩), (c!"ULLI", .location ⟨c!"ULLI"⟩)]) (d := 11) (h := 25) (m := 30)
    (.location (hs := [(c!"METAR", .keyword ⟨.METAR⟩)]) (Or.inr (Or.inl rfl)) .metar
      ⟨'U', 'L', 'L', 'I', rfl, by simp [Capital]⟩) (by omega) (by omega) (by omega)

theorem example_after : AfterEntry c!"Q1013" ⟨.unknown {}, .UNKNOWN, c!"Q1013"⟩ := by
  refine .unknown ?_
  rintro k ⟨ps, h, -⟩
  simp [keywords] at h

/-- A missing report with a word too much, and the same words with a limit of four. -/
example : Result c!"METAR ULLI 112530Z NIL Q1013 RMK=" 100
      ⟨{ type := .METAR, error := .UNEXPECTED_GROUP_AFTER_NIL, icaoLocation := c!"ULLI",
         reportTime := some ⟨some 11, 25, 30⟩, isNil := true },
       [⟨.keyword ⟨.METAR⟩, .HEADER, c!"METAR"⟩, ⟨.location ⟨c!"ULLI"⟩, .HEADER, c!"ULLI"⟩,
        ⟨.reportTime ⟨⟨some 11, 25, 30⟩⟩, .HEADER, c!"112530Z"⟩, ⟨.keyword ⟨.NIL⟩, .METAR, c!"NIL"⟩,
        ⟨.unknown {}, .UNKNOWN, c!"Q1013"⟩]⟩ ∧
    Result c!"METAR ULLI 112530Z NIL Q1013 RMK=" 4
      ⟨{ type := .METAR, error := .REPORT_TOO_LARGE, icaoLocation := c!"ULLI",
         reportTime := some ⟨some 11, 25, 30⟩, isNil := true },
       [⟨.keyword ⟨.METAR⟩, .HEADER, c!"METAR"⟩, ⟨.location ⟨c!"ULLI"⟩, .HEADER, c!"ULLI"⟩,
        ⟨.reportTime ⟨⟨some 11, 25, 30⟩⟩, .HEADER, c!"112530Z"⟩, ⟨.keyword ⟨.NIL⟩, .METAR, c!"NIL"⟩]⟩ :=
  ⟨C85_result (ws := [c!"METAR", c!"ULLI", c!"112530Z", c!"NIL", c!"Q1013", c!"RMK"]) (groups_tokens _)
      (.within (.typed example_header (.nil (.word example_after))) (by decide)),
   C85_result (ws := [c!"METAR", c!"ULLI", c!"112530Z", c!"NIL", c!"Q1013", c!"RMK"]) (groups_tokens _)
      (.tooLarge (us := [c!"METAR", c!"ULLI", c!"112530Z", c!"NIL"]) (rest := [c!"Q1013", c!"RMK"]) rfl
        (.typed example_header (.nil .nothing)) (by decide))⟩

/-- A report without type: with the limit of three the third word is still taken for a part of the header. -/
example : Result c!"ULLI 112530Z CAVOK" 3
      ⟨{ type := .METAR, error := .REPORT_TOO_LARGE, icaoLocation := c!"ULLI", reportTime := some ⟨some 11, 25, 30⟩ },
       [⟨.location ⟨c!"ULLI"⟩, .HEADER, c!"ULLI"⟩, ⟨.reportTime ⟨⟨some 11, 25, 30⟩⟩, .HEADER, c!"112530Z"⟩,
        ⟨.unknown {}, .HEADER, c!"CAVOK"⟩]⟩ := by
  have ho : Opening .time .UNKNOWN [(c!"ULLI", .location ⟨c!"ULLI"⟩), (c!"112530Z", .reportTime ⟨⟨some 11, 25, 30⟩⟩)] :=
    .time (hs := [(c!"ULLI", .location ⟨c!"ULLI"⟩)]) (d := 11) (h := 25) (m := 30)
      (.location (hs := []) (Or.inl rfl) .start ⟨'U', 'L', 'L', 'I', rfl, by simp [Capital]⟩)
      (by simp) (by omega) (by omega) (by omega)
  have hp : ¬ PeriodWord c!"CAVOK" := by
    rintro ⟨d, h, d', h', -, -, -, -, e⟩
    have := congrArg List.length e
    simp [periodText, TrendWord.text, decimal] at this
  have hx : HeaderEntry c!"CAVOK" ⟨.unknown {}, .HEADER, c!"CAVOK"⟩ := by
    refine .unknown ?_
    intro g hg
    have h1 := word_parse hg {}
    have h2 : GroupParser.parse c!"CAVOK" .HEADER {} = .ok (.unknown {}) := by rfl
    rw [h1] at h2
    cases h2
    exact absurd (word_closed hg).1 (by simp [Group.isFallback])
  exact C85_result (ws := [c!"ULLI", c!"112530Z", c!"CAVOK"]) (groups_tokens _) (.third rfl ho hp (by decide) hx rfl)

end Metaf.Props

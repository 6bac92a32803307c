import Verif.Proofs.ParserEntry

/-!
The elements and parts of the entries along a run of the parser.
-/

set_option linter.unusedSectionVars false

namespace Metaf

variable [FloatSem]

open Spec Grammar

namespace Parser

/-- Element and report part of the entries. -/
def kinds (gs : List GroupInfo) : List (Element × ReportPart) :=
  gs.map (fun gi => (elementOf gi.group, gi.reportPart))

/-- The elements in the order of the report. -/
def els (gs : List GroupInfo) : List Element := gs.reverse.map (fun gi => elementOf gi.group)

theorem els_eq (gs : List GroupInfo) : els gs = ((kinds gs).map Prod.fst).reverse := by
  simp [els, kinds, Function.comp_def]

/-- All entries are proper. -/
def EntriesOk (gs : List GroupInfo) : Prop := ∀ gi ∈ gs, EntryOk gi

/-- A change that only repeats or merges entries without role in the grammar (latest first). -/
inductive Stutter : List (Element × ReportPart) → List (Element × ReportPart) → Prop
  | same {k} : Stutter k k
  | double {p r} : Stutter ((.other, p) :: r) ((.other, p) :: (.other, p) :: r)
  | merge {p q r} : Stutter ((.other, p) :: (.other, q) :: r) ((.other, q) :: r)

theorem fallback_other {g : Group} (h : g.isFallback = true) : elementOf g = .other := by
  cases g <;> first | rfl | (simp [Group.isFallback] at h)

theorem kinds_unknown {rest : List GroupInfo} {g : Group} {p : ReportPart} {s : Str}
    (hf : g.isFallback = true) :
    Stutter ((.other, p) :: kinds rest) (kinds (addGroupToResult rest g p s)) := by
  have hg := fallback_other hf
  cases rest with
  | nil =>
    simp only [addGroupToResult, kinds, List.map_cons, List.map_nil, hg]
    exact .same
  | cons x rest =>
    simp only [addGroupToResult]
    split
    · rename_i hb
      simp only [Bool.and_eq_true] at hb
      simp only [kinds, List.map_cons, fallback_other hb.2]
      exact .merge
    · simp only [kinds, List.map_cons, hg]
      exact .same

theorem entriesOk_addGroup {gs : List GroupInfo} {g : Group} {p : ReportPart} {s : Str}
    (h : EntriesOk gs) (hg : EntryOk { group := g, reportPart := p, rawString := s }) :
    EntriesOk (addGroupToResult gs g p s) := by
  cases gs with
  | nil => intro x hx; simp only [addGroupToResult, List.mem_singleton] at hx; subst hx; exact hg
  | cons last rest =>
    simp only [addGroupToResult]
    split
    · rename_i hb
      simp only [Bool.and_eq_true] at hb
      intro x hx
      rcases List.mem_cons.mp hx with rfl | hx
      · have : last.group.index = 21 := isFallback_iff.mp hb.2
        rw [entryOk_other (by simp only; omega)]
        intro _
        exact rejected_of_space (by simp)
      · exact h x (by simp [hx])
    · intro x hx
      rcases List.mem_cons.mp hx with rfl | hx
      · exact hg
      · exact h x hx

/-- The effect of an attempt to append on the entries. -/
theorem Appended.syntax {tok : Str} {p : ReportPart} {md : ReportMetadata}
    {gs gs' : List GroupInfo} {b : Bool} (h : Appended tok p md gs gs' b) (hi : GroupsInv gs)
    (he : EntriesOk gs) (hh : HeadText gs) :
    EntriesOk gs' ∧ Stutter (kinds gs) (kinds gs') := by
  have keep : ∀ {x last : GroupInfo} {rest : List GroupInfo}, EntriesOk (last :: rest) → EntryOk x →
      EntriesOk (x :: rest) := by
    intro x last rest hl hx y hy
    rcases List.mem_cons.mp hy with rfl | hy
    · exact hx
    · exact hl y (by simp [hy])
  have re : ∀ {last : GroupInfo} {g rp g2 : Group} {r2 : AppendResult}, EntryOk last →
      last.group.Inv →
      last.rawString ≠ [] → last.group.append tok p md = .ok (g, .GROUP_INVALIDATED) →
      GroupParser.reparse last.rawString last.reportPart md g = .ok rp →
      rp.append tok p md = .ok (g2, r2) →
      4 ≤ last.group.index ∧ 4 ≤ rp.index ∧ 4 ≤ g2.index := by
    intro last g rp g2 r2 hl hinv hs ha hr ha2
    have h4 := ((entry_append hl hinv ha).2.2.2 rfl).1
    have hr4 := reparse_other hl h4 hs hr
    obtain ⟨rp', h1, h2⟩ := GroupParser.reparse_ok last.rawString last.reportPart md g
    rw [hr] at h1; injection h1 with h1; subst h1
    obtain ⟨q, hq, -, hidx⟩ := Group.append_ok h2 tok p md
    rw [ha2] at hq
    injection hq with hq
    subst hq
    simp only at hidx
    exact ⟨h4, hr4, by omega⟩
  cases h with
  | empty => exact ⟨he, .same⟩
  | fallback => exact ⟨he, .same⟩
  | @appended last rest g hf ha =>
    have := entry_append (he last (by simp)) (hi last (by simp)) ha
    refine ⟨keep he (this.2.1 rfl), ?_⟩
    simp only [kinds, List.map_cons, this.1]
    exact .same
  | @rejected last rest g hf ha =>
    have := entry_append (he last (by simp)) (hi last (by simp)) ha
    refine ⟨keep he (this.2.2.1 rfl), ?_⟩
    simp only [kinds, List.map_cons, this.1]
    exact .same
  | @unknown last rest g rp hf ha hr hfb =>
    have h4 := ((entry_append (he last (by simp)) (hi last (by simp)) ha).2.2.2 rfl).1
    have hl := (entryOk_other h4).mp (he last (by simp))
    have hrp : rp.index = 21 := isFallback_iff.mp hfb
    constructor
    · refine entriesOk_addGroup (fun x hx => he x (by simp [hx])) ?_
      rw [entryOk_other (by simp only; omega)]
      exact hl
    · have : kinds (last :: rest) = (.other, last.reportPart) :: kinds rest := by
        simp [kinds, elementOf_other h4]
      rw [this]
      exact kinds_unknown hfb
  | @reAppended last rest g rp g2 hf ha hr hfb ha2 =>
    obtain ⟨h1, h2, h3⟩ := re (he last (by simp)) (hi last (by simp)) (hh last (by simp)) ha hr ha2
    constructor
    · refine keep he ?_
      rw [entryOk_other (by simpa using h3)]
      intro _
      exact rejected_of_space (by simp)
    · simp only [kinds, List.map_cons, elementOf_other h1, elementOf_other h3]
      exact .same
  | @reRejected last rest g rp g2 hf ha hr hfb ha2 =>
    obtain ⟨h1, h2, h3⟩ := re (he last (by simp)) (hi last (by simp)) (hh last (by simp)) ha hr ha2
    have hl := (entryOk_other h1).mp (he last (by simp))
    constructor
    · refine keep he ?_
      rw [entryOk_other (by simpa using h3)]
      exact hl
    · simp only [kinds, List.map_cons, elementOf_other h1, elementOf_other h3]
      exact .same
  | @reInvalidated last rest g rp g2 hf ha hr hfb ha2 =>
    obtain ⟨h1, h2, h3⟩ := re (he last (by simp)) (hi last (by simp)) (hh last (by simp)) ha hr ha2
    have hl := (entryOk_other h1).mp (he last (by simp))
    constructor
    · intro x hx
      rcases List.mem_cons.mp hx with rfl | hx
      · rw [entryOk_other (by simp [Group.index])]
        exact hl
      · refine keep he ?_ x hx
        rw [entryOk_other (by simpa using h3)]
        intro hn
        exact absurd rfl hn
    · simp only [kinds, List.map_cons, elementOf_other h1, elementOf_other h3]
      exact .double

theorem Run.entriesOk {limit : Nat} {done : List Str} {v : Vars} (h : Run limit done v) :
    EntriesOk v.groups := by
  induction h with
  | start => intro x hx; simp at hx
  | step hr _ _ _ hst ih =>
    cases hst with
    | absorbed ha => exact (ha.syntax hr.inv ih hr.headText).1
    | parsed ha hp =>
      exact entriesOk_addGroup (ha.syntax hr.inv ih hr.headText).1 (entryOk_parse hp)
    | reparsed ha _ _ _ _ _ _ hp =>
      exact entriesOk_addGroup (ha.syntax hr.inv ih hr.headText).1 (entryOk_parse hp)

/-! ### The status is the verdict on the elements -/

theorem verdict_stutter {k k' : List (Element × ReportPart)} (h : Stutter k k') :
    verdict ((k'.map Prod.fst).reverse) = verdict ((k.map Prod.fst).reverse) := by
  cases h with
  | same => rfl
  | double =>
    simp only [List.map_cons, List.reverse_cons, verdict_append, delta_other_other]
  | merge =>
    simp only [List.map_cons, List.reverse_cons, verdict_append, delta_other_other]

theorem verdict_addGroup {gs : List GroupInfo} {g : Group} {p : ReportPart} {s : Str} :
    verdict (els (addGroupToResult gs g p s)) = delta (verdict (els gs)) (elementOf g) := by
  cases gs with
  | nil => simp [addGroupToResult, els, verdict]
  | cons last rest =>
    simp only [addGroupToResult]
    split
    · rename_i hb
      simp only [Bool.and_eq_true] at hb
      have : els ({ last with rawString := last.rawString ++ c!" " ++ s } :: rest) =
          els rest ++ [.other] := by simp [els, fallback_other hb.2]
      rw [this]
      have : els (last :: rest) = els rest ++ [.other] := by simp [els, fallback_other hb.2]
      rw [this, verdict_append, fallback_other hb.1, delta_other_other]
    · have : els ({ group := g, reportPart := p, rawString := s } :: last :: rest) =
          els (last :: rest) ++ [elementOf g] := by simp [els]
      rw [this, verdict_append]

/-- The time span written in hours and minutes has the form of the one written in days and
hours. -/
theorem _root_.Metaf.TrendGroup.fromTimeSpan_of_HHMM {s : Str} {g : TrendGroup}
    (h : TrendGroup.fromTimeSpanHHMM s = some g) : (TrendGroup.fromTimeSpan s).isSome = true := by
  unfold TrendGroup.fromTimeSpanHHMM at h
  unfold TrendGroup.fromTimeSpan
  cases hm : regexMatch TrendGroup.timeSpanRgx s with
  | none => simp [hm] at h
  | some m =>
    simp only [hm] at h ⊢
    have key : ∀ i x, MetafTime.fromStringDDHHMM (m.str i) = some x → (m.str i).length = 4 →
        ∃ y, MetafTime.fromStringDDHH (m.str i) = some y := by
      intro i x hx hl
      simp only [MetafTime.fromStringDDHHMM, hl, beq_self_eq_true, if_true] at hx
      simp only [MetafTime.fromStringDDHH, hl, bne_self_eq_false, Bool.false_eq_true, if_false]
      split at hx
      · rename_i a b ha hb
        simp [ha, hb]
      · simp at hx
    have hlen : (m.str 1).length = 4 ∧ (m.str 2).length = 4 := by
      have hs := regexMatch_sound hm
      simp only [TrendGroup.timeSpanRgx, Rx.match_seq, Rx.match_cap, Rx.match_d, Rx.match_chr] at hs
      obtain ⟨u, v, ca, cb, ⟨ca', h1, rfl⟩, ⟨u2, v2, ca2, cb2, ⟨rfl, rfl⟩, ⟨ca3, h2, rfl⟩, rfl, rfl⟩,
        rfl, rfl⟩ := hs
      obtain ⟨_, _, _, _, ⟨x1, _, rfl, rfl⟩, ⟨_, _, _, _, ⟨x2, _, rfl, rfl⟩, ⟨_, _, _, _,
        ⟨x3, _, rfl, rfl⟩, ⟨x4, _, rfl, rfl⟩, rfl, rfl⟩, rfl, rfl⟩, rfl, rfl⟩ := h1
      obtain ⟨_, _, _, _, ⟨y1, _, rfl, rfl⟩, ⟨_, _, _, _, ⟨y2, _, rfl, rfl⟩, ⟨_, _, _, _,
        ⟨y3, _, rfl, rfl⟩, ⟨y4, _, rfl, rfl⟩, rfl, rfl⟩, rfl, rfl⟩, rfl, rfl⟩ := h2
      simp [Caps.str]
    split at h
    · rename_i a b ha hb
      obtain ⟨x, hx⟩ := key 1 _ ha hlen.1
      obtain ⟨y, hy⟩ := key 2 _ hb hlen.2
      simp [hx, hy]
    · simp at h

/-- A group of the body of a METAR which is a time span would be one in the header, too. -/
theorem reparse_not_span {tok : Str} {md : ReportMetadata} {g0 g : Group}
    (h0 : GroupParser.parse tok .HEADER md = .ok g0)
    (h : GroupParser.parse tok .METAR md = .ok g) (hs : getSyntaxGroup g = .TIME_SPAN) :
    getSyntaxGroup g0 = .TIME_SPAN := by
  cases g with
  | keyword k => obtain ⟨t⟩ := k; cases t <;> simp [getSyntaxGroup] at hs
  | trend t =>
    have ht : t.isTimeSpanGroup = true := by
      by_contra hn
      simp only [getSyntaxGroup, hn] at hs
      simp at hs
    have hp : TrendGroup.parse tok .METAR = some t := by
      have := (GroupParser.parse_first h).2
      simpa [recognise, Group.index] using this
    have hh : TrendGroup.fromTimeSpanHHMM tok = some t := by
      unfold TrendGroup.parse at hp
      have notTrend : ∀ x : TrendGroup, x.isTafTimeSpanGroup = false → some x = some t → False := by
        intro x hx he
        injection he with he
        subst he
        rw [TrendGroup.span_of_flag hx] at ht
        simp at ht
      ite_cases hp
      · exact absurd hp (fun h => notTrend _ rfl h)
      · exact absurd hp (fun h => notTrend _ rfl h)
      · exact absurd hp (fun h => notTrend _ rfl h)
      · exact absurd hp (fun h => notTrend _ rfl h)
      · split at hp
        · rename_i x hx
          exact absurd hp (fun h => notTrend _ (TrendGroup.fromTrendTime_flags hx) h)
        · exact hp
    have hfs := TrendGroup.fromTimeSpan_of_HHMM hh
    obtain ⟨t0, ht0⟩ := Option.isSome_iff_exists.mp hfs
    have hslash : '/' ∈ tok := by
      unfold TrendGroup.fromTimeSpan at ht0
      split at ht0
      · simp at ht0
      · rename_i m hm
        have hsd := regexMatch_sound hm
        simp only [TrendGroup.timeSpanRgx, Rx.match_seq, Rx.match_cap, Rx.match_d,
          Rx.match_chr] at hsd
        obtain ⟨u, v, ca, cb, -, ⟨u2, v2, ca2, cb2, ⟨rfl, rfl⟩, -, rfl, rfl⟩, rfl, rfl⟩ := hsd
        simp
    have hk : KeywordGroup.parse tok .HEADER = none := by
      rw [Option.eq_none_iff_forall_not_mem]
      intro k hk
      have hk : KeywordGroup.parse tok .HEADER = some k := hk
      unfold KeywordGroup.parse at hk
      ite_cases hk
      all_goals first
        | (rename_i hc; rw [hc.2] at hslash; revert hslash; decide)
        | (rename_i hc; rw [hc] at hslash; revert hslash; decide)
        | simp at hk
    have hl : LocationGroup.parse tok .HEADER = none := by
      unfold LocationGroup.parse
      rw [regexMatch_none_of_char (c := '/') (by decide) hslash]
      simp
    have hr : ReportTimeGroup.parse tok .HEADER = none := by
      unfold ReportTimeGroup.parse
      rw [regexMatch_none_of_char (c := '/') (by decide) hslash]
      simp
    have htp : TrendGroup.parse tok .HEADER = some t0 := by
      simp [TrendGroup.parse, ht0]
    have : g0 = .trend t0 := by
      have : GroupParser.parse tok .HEADER md = .ok (.trend t0) := by
        simp [GroupParser.parse, GroupParser.alternatives, GroupParser.parseAlternative, hk, hl, hr,
          htp]
      rw [h0] at this
      injection this
    rw [this]
    simp [getSyntaxGroup, TrendGroup.fromTimeSpan_flags ht0]
  | _ => simp [getSyntaxGroup] at hs

theorem keyword_text {s : Str} {p : ReportPart} (h : KeywordGroup.parse s p = some ⟨.NIL⟩) :
    s = c!"NIL" := by
  unfold KeywordGroup.parse at h
  ite_cases h
  all_goals first
    | (simp at h; done)
    | (rename_i hc; exact hc.2)

theorem reparse_not_nil {tok : Str} {md : ReportMetadata} {g0 g : Group}
    (h0 : GroupParser.parse tok .HEADER md = .ok g0)
    (h : GroupParser.parse tok .METAR md = .ok g) (hs : getSyntaxGroup g = .NIL) :
    getSyntaxGroup g0 = .NIL := by
  cases g with
  | keyword k =>
    have hk : k = ⟨.NIL⟩ := by obtain ⟨t⟩ := k; cases t <;> simp [getSyntaxGroup] at hs ⊢
    have hp : KeywordGroup.parse tok .METAR = some k := by
      have := (GroupParser.parse_first h).2
      simpa [recognise, Group.index] using this
    rw [hk] at hp
    have := keyword_text hp
    subst this
    have : GroupParser.parse c!"NIL" .HEADER md = .ok (.keyword ⟨.NIL⟩) := rfl
    rw [h0] at this
    injection this with this
    subst this
    rfl
  | trend t => simp only [getSyntaxGroup] at hs; split at hs <;> simp at hs
  | _ => simp [getSyntaxGroup] at hs

theorem limitStatus_of_ne {limit count : Nat} {st : Status}
    (h : (limitStatus limit count st).reportError ≠ .REPORT_TOO_LARGE) :
    limitStatus limit count st = st ∧ count < limit := by
  unfold limitStatus at h ⊢
  split at h
  · simp [Status.setError] at h
  · rename_i hlt
    simp [hlt]
    omega

theorem transition_second {st : Status} {x : SyntaxGroup} (hs : st.state = .TIME_SPAN)
    (ht : st.reportType = .UNKNOWN) (h1 : x ≠ .TIME_SPAN) (h2 : x ≠ .NIL) :
    st.transition x = repeatStatus st.reportError := by
  obtain ⟨s, t, e⟩ := st
  simp only at hs ht
  subst hs ht
  cases x <;> simp [Status.transition, Status.transitionFromTimeSpan,
    repeatStatus, Status.setReportType, Status.setState] at h1 h2 ⊢

/-- Unless the report is too large, the status is the verdict on the elements of the result. -/
theorem Run.verdict {limit : Nat} {done : List Str} {v : Vars} (h : Run limit done v)
    (hne : v.status.reportError ≠ .REPORT_TOO_LARGE) : Grammar.verdict (els v.groups) = v.status := by
  induction h with
  | start => rfl
  | @step _ tok v v' hr he _ _ hst ih =>
    have hnone : v.status.reportError = .NONE := by simpa [Status.isError] using he
    have ih := ih (by rw [hnone]; simp)
    cases hst with
    | @absorbed gs ha =>
      obtain ⟨h1, -⟩ := limitStatus_of_ne hne
      simp only [h1]
      rw [← ih]
      have := verdict_stutter (ha.syntax hr.inv hr.entriesOk hr.headText).2
      simpa [els_eq] using this
    | @parsed gs g ha hp hginv hrep =>
      obtain ⟨h1, h2⟩ := limitStatus_of_ne hne
      simp only [h1]
      rw [verdict_addGroup]
      have := verdict_stutter (ha.syntax hr.inv hr.entriesOk hr.headText).2
      rw [← els_eq, ← els_eq, ih] at this
      rw [this]
      unfold delta
      rw [syn_elementOf, if_neg]
      intro hrr
      have := hrep hrr
      omega
    | @reparsed gs g0 g ha hstate htype hp0 hn1 hn2 hlt hp hginv =>
      obtain ⟨h1, h2⟩ := limitStatus_of_ne hne
      simp only [h1]
      rw [verdict_addGroup]
      have := verdict_stutter (ha.syntax hr.inv hr.entriesOk hr.headText).2
      rw [← els_eq, ← els_eq, ih] at this
      rw [this]
      have hg1 : getSyntaxGroup g ≠ .TIME_SPAN := fun hs => hn1 (reparse_not_span hp0 hp hs)
      have hg2 : getSyntaxGroup g ≠ .NIL := fun hs => hn2 (reparse_not_nil hp0 hp hs)
      have ht := transition_second hstate htype hg1 hg2
      unfold delta
      rw [syn_elementOf, ht]
      exact if_pos rfl

end Parser

end Metaf

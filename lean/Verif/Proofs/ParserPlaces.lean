import Verif.Proofs.ParserParts

/-!
The place of each element in an accepted report.
-/

set_option linter.unusedSectionVars false

namespace Metaf

variable [FloatSem]

open Spec Grammar

namespace Parser

theorem allowed_of_entryOk {gi : GroupInfo} (h : EntryOk gi) :
    Allowed gi.reportPart (elementOf gi.group) := by
  obtain ⟨g, p, s⟩ := gi
  cases g with
  | keyword k =>
    obtain ⟨t⟩ := k
    have h : KeywordGroup.parse s p = some ⟨t⟩ := h
    unfold KeywordGroup.parse at h
    ite_cases h
    all_goals first
      | (simp at h; done)
      | (rename_i hc
         injection h with h; injection h with h; subst h
         first
         | (simpa [Allowed, elementOf] using hc.1)
         | simp [Allowed, elementOf])
  | location l =>
    have h : LocationGroup.parse s p = some l := h
    unfold LocationGroup.parse at h
    have : p = .HEADER := by
      by_contra hp
      simp [hp] at h
    simpa [Allowed, elementOf] using this
  | reportTime l =>
    have h : ReportTimeGroup.parse s p = some l := h
    unfold ReportTimeGroup.parse at h
    have : p = .HEADER := by
      by_contra hp
      simp [hp] at h
    simpa [Allowed, elementOf] using this
  | trend t =>
    simp only [elementOf]
    split
    · rename_i hs
      have hf : t.isTafTimeSpanGroup = true := by
        by_contra hf
        rw [TrendGroup.span_of_flag (by simpa using hf)] at hs
        simp at hs
      have := (h hf).2
      cases p <;> simp [Allowed]
      all_goals simp [TrendGroup.parse] at this
    · trivial
  | _ => trivial

/-- The part in which the element `e` is placed in a state. -/
def partAt (st : Status) (e : Element) : ReportPart :=
  if st.state = .TIME_SPAN ∧ st.reportType = .UNKNOWN ∧ e ≠ .span ∧ e ≠ .nil then .METAR
  else st.getReportPart

/-- Each entry is in the part due in the state before it (latest first). -/
inductive PosOk : List (Element × ReportPart) → Prop
  | nil : PosOk []
  | cons {e p k} : PosOk k → p = partAt (Grammar.verdict ((k.map Prod.fst).reverse)) e →
      PosOk ((e, p) :: k)

theorem posOk_head {e p k} (h : PosOk ((e, p) :: k)) :
    p = partAt (Grammar.verdict ((k.map Prod.fst).reverse)) e := by cases h; assumption

theorem PosOk.tail {a k} (h : PosOk (a :: k)) : PosOk k := by cases h; assumption

theorem partAt_other {st : Status} (h : (delta st .other).reportError = .NONE)
    (h0 : StatusOk st) :
    partAt (delta st .other) .other = partAt st .other := by
  obtain ⟨s, t, e⟩ := st
  revert h h0
  cases s <;> cases t <;> trans_simp <;> simp [partAt, Status.getReportPart, StatusOk] <;>
    (try intros) <;> simp_all

theorem PosOk.stutter {k k' : List (Element × ReportPart)} (h : PosOk k) (hs : Stutter k k')
    (he : (Grammar.verdict ((k.map Prod.fst).reverse)).reportError = .NONE) : PosOk k' := by
  cases hs with
  | same => exact h
  | @double p r =>
    refine .cons h ?_
    cases h with
    | cons _ hp =>
      simp only [List.map_cons, List.reverse_cons, verdict_append] at he ⊢
      rw [partAt_other he (statusOk_verdict _)]
      exact hp
  | @merge p q r => exact h.tail

theorem posOk_addGroup {gs : List GroupInfo} {g : Group} {p : ReportPart} {s : Str}
    (h : PosOk ((elementOf g, p) :: kinds gs)) :
    PosOk (kinds (addGroupToResult gs g p s)) := by
  cases gs with
  | nil => exact h
  | cons last rest =>
    simp only [addGroupToResult]
    split
    · exact h.tail
    · exact h

theorem Run.places {limit : Nat} {done : List Str} {v : Vars} (h : Run limit done v) 
    (hn : v.status.reportError = .NONE) : PosOk (kinds v.groups) := by
  induction h with
  | start => exact .nil
  | @step _ tok v v' hr he _ _ hst ih =>
    have hnone : v.status.reportError = .NONE := by simpa [Status.isError] using he
    have ih := ih hnone
    have hv := hr.verdict (by rw [hnone]; simp)
    have hv' : Grammar.verdict (((kinds v.groups).map Prod.fst).reverse) = v.status := by
      rw [← els_eq]; exact hv
    have put : ∀ {gs : List GroupInfo} {g : Group} {b : Bool}
        (ha : Appended tok v.status.getReportPart v.md v.groups gs b)
        (p : ReportPart) (hp : p = partAt v.status (elementOf g)),
        PosOk ((elementOf g, p) :: kinds gs) := by
      intro gs g b ha p hp
      have hs := (ha.syntax hr.inv hr.entriesOk hr.headText).2
      refine .cons (ih.stutter hs (by rw [hv']; exact hnone)) ?_
      rw [verdict_stutter hs, hv']
      exact hp
    cases hst with
    | @absorbed gs ha =>
      have hs := (ha.syntax hr.inv hr.entriesOk hr.headText).2
      exact ih.stutter hs (by rw [hv']; exact hnone)
    | @parsed gs g ha hp hginv hrep =>
      obtain ⟨hl1, hl2⟩ := limitStatus_error hn
      refine posOk_addGroup (put ha _ ?_)
      unfold partAt
      rw [if_neg]
      rintro ⟨h1, h2, h3, h4⟩
      have h5 : getSyntaxGroup g ≠ .TIME_SPAN := by
        rw [← syn_elementOf]
        revert h3
        cases elementOf g <;> simp [syn]
      have h6 : getSyntaxGroup g ≠ .NIL := by
        rw [← syn_elementOf]
        revert h4
        cases elementOf g <;> simp [syn]
      have := hrep (by rw [transition_second h1 h2 h5 h6]; rfl)
      omega
    | @reparsed gs g0 g ha hstate' htype hp0 hn1 hn2 hlt hp hginv =>
      refine posOk_addGroup (put ha _ ?_)
      unfold partAt
      rw [if_pos]
      refine ⟨hstate', htype, fun he => hn1 (reparse_not_span hp0 hp ?_),
        fun he => hn2 (reparse_not_nil hp0 hp ?_)⟩
      · rw [← syn_elementOf, he]; rfl
      · rw [← syn_elementOf, he]; rfl

/-- Each element is allowed where it stands. -/
def WellPlaced (l : List Element) : Prop :=
  ∀ pre x post, l = pre ++ x :: post → Allowed (partAt (Grammar.verdict pre) x) x

theorem wellPlaced_of {gs : List GroupInfo} (h : PosOk (kinds gs)) (he : EntriesOk gs) :
    WellPlaced (els gs) := by
  induction gs with
  | nil => intro pre x post h; simp [els] at h
  | cons gi gs ih =>
    have ih := ih h.tail (fun x hx => he x (by simp [hx]))
    intro pre x post hl
    have hc : els (gi :: gs) = els gs ++ [elementOf gi.group] := by simp [els]
    rw [hc] at hl
    rcases List.eq_nil_or_concat post with rfl | ⟨post', y, rfl⟩
    · have hl : els gs ++ [elementOf gi.group] = pre ++ [x] := hl
      obtain ⟨h1, h2⟩ := List.append_inj' hl rfl
      simp only [List.cons.injEq, and_true] at h2
      subst h2
      rw [← h1]
      have hp : gi.reportPart = partAt (Grammar.verdict (els gs)) (elementOf gi.group) := by
        rw [els_eq]
        exact posOk_head h
      rw [← hp]
      exact allowed_of_entryOk (he gi (by simp))
    · refine ih pre x post' ?_
      have : els gs ++ [elementOf gi.group] = (pre ++ x :: post') ++ [y] := by
        rw [hl]; simp
      exact (List.append_inj' this rfl).1

theorem placed_metarBody {l h b c : List Element} {e : Element} (hw : WellPlaced l)
    (hl : l = h ++ e :: b ++ c) (hs : MetarStart h e) (hb : ∀ x ∈ e :: b, InMetarBody x) :
    ∀ x ∈ e :: b, MetarBody x := by
  have key : ∀ x, InMetarBody x → Allowed .METAR x → MetarBody x := by
    intro x h1 h2
    cases x <;> simp_all [InMetarBody, Allowed, MetarBody]
  intro x hx
  refine key x (hb x hx) ?_
  rcases List.mem_cons.mp hx with rfl | hx'
  · have := hw h x (b ++ c) (by rw [hl]; simp)
    have hp : partAt (Grammar.verdict h) x = .METAR := by
      obtain ⟨d, rfl, hd | ⟨hd, hne⟩⟩ := hs
      · rw [verdict_append, verdict_head hd]; rfl
      · rw [verdict_append, verdict_head hd]
        simp only [partAt]
        rw [if_pos]
        exact ⟨rfl, rfl, hne, (hb x (by simp)).1⟩
    rw [hp] at this
    exact this
  · obtain ⟨b1, b2, rfl⟩ := List.append_of_mem hx'
    have := hw (h ++ e :: b1) x (b2 ++ c) (by rw [hl]; simp)
    have hv : Grammar.verdict (h ++ e :: b1) = ⟨.REPORT_BODY_METAR, .METAR, .NONE⟩ := by
      have : h ++ e :: b1 = (h ++ [e]) ++ b1 := by simp
      rw [this, verdict_app, verdict_metarStart hs (hb e (by simp))]
      exact foldl_metarBody (fun y hy => hb y (by simp [hy]))
    rw [hv] at this
    exact this

theorem placed_tafBody {l h b c : List Element} (hw : WellPlaced l)
    (hl : l = h ++ b ++ c) (hs : TafStart h) (hb : ∀ x ∈ b, InTafBody x) :
    ∀ x ∈ b, TafBody x := by
  have key : ∀ x, InTafBody x → Allowed .TAF x → TafBody x := by
    intro x h1 h2
    cases x <;> simp_all [InTafBody, Allowed, TafBody]
  intro x hx
  refine key x (hb x hx) ?_
  obtain ⟨b1, b2, rfl⟩ := List.append_of_mem hx
  have := hw (h ++ b1) x (b2 ++ c) (by rw [hl]; simp)
  have hp : partAt (Grammar.verdict (h ++ b1)) x = .TAF := by
    rw [verdict_app, verdict_tafStart hs]
    cases b1 with
    | nil => rfl
    | cons y b1 =>
      rw [foldl_tafBody (Or.inl rfl) (fun z hz => hb z (List.mem_append_left _ hz)) (by simp)]
      rfl
  rw [hp] at this
  exact this

theorem accepted_of_report {t : ReportType} {l : List Element} (h : Report t l)
    (hw : WellPlaced l) : Accepted t l := by
  cases h with
  | nil h => exact .nil h
  | cnl h => exact .cnl h
  | @metar h e b hs hb => exact .metar hs (placed_metarBody (c := []) hw (by simp) hs hb)
  | @metarRemarks h b r hs hb =>
    refine .metarRemarks hs ?_ ?_
    · cases b with
      | nil => simp
      | cons e b => exact placed_metarBody (c := .rmk :: r) hw (by simp) hs hb
    · intro x hx
      obtain ⟨r1, r2, rfl⟩ := List.append_of_mem hx
      have := hw (h ++ b ++ .rmk :: r1) x r2 (by simp)
      have hv : Grammar.verdict (h ++ b ++ .rmk :: r1) = ⟨.REMARK_METAR, .METAR, .NONE⟩ := by
        have hr : Grammar.verdict (h ++ b ++ [.rmk]) = ⟨.REMARK_METAR, .METAR, .NONE⟩ := by
          cases b with
          | nil => simpa using verdict_metarStart_rmk hs
          | cons e b =>
            rw [verdict_append]
            have : h ++ e :: b = (h ++ [e]) ++ b := by simp
            rw [this, verdict_app, verdict_metarStart (e := e) hs (hb e (by simp)),
              foldl_metarBody (fun y hy => hb y (by simp [hy]))]
            rfl
        have : h ++ b ++ .rmk :: r1 = (h ++ b ++ [.rmk]) ++ r1 := by simp
        rw [this, verdict_app, hr]
        exact foldl_metarRemarks r1
      rw [hv] at this
      cases x <;> simp_all [partAt, Status.getReportPart, Allowed]
  | @taf h e b hs hb => exact .taf hs (placed_tafBody (c := []) hw (by simp) hs hb)
  | @tafRemarks h b r hs hb hr =>
    refine .tafRemarks hs (placed_tafBody (c := .rmk :: r) hw (by simp) hs hb) ?_
    intro x hx
    have hxr := hr x hx
    obtain ⟨r1, r2, rfl⟩ := List.append_of_mem hx
    have := hw (h ++ b ++ .rmk :: r1) x r2 (by simp)
    have hv : Grammar.verdict (h ++ b ++ .rmk :: r1) = ⟨.REMARK_TAF, .TAF, .NONE⟩ := by
      have hv : Grammar.verdict (h ++ b ++ [.rmk]) = ⟨.REMARK_TAF, .TAF, .NONE⟩ := by
        rw [verdict_append, verdict_app, verdict_tafStart hs]
        cases b with
        | nil => rfl
        | cons y b1 => rw [foldl_tafBody (Or.inl rfl) hb (by simp)]; rfl
      have : h ++ b ++ .rmk :: r1 = (h ++ b ++ [.rmk]) ++ r1 := by simp
      rw [this, verdict_app, hv]
      exact foldl_tafRemarks (fun y hy => hr y (List.mem_append_left _ hy))
    rw [hv] at this
    cases x <;> simp_all [partAt, Status.getReportPart, Allowed, InTafRemarks]

theorem report_of_accepted {t : ReportType} {l : List Element} (h : Accepted t l) : Report t l := by
  have mb : ∀ x, MetarBody x → InMetarBody x := by
    intro x h
    cases x <;> simp_all [InMetarBody, MetarBody]
  have tb : ∀ x, TafBody x → InTafBody x := by
    intro x h
    cases x <;> simp_all [InTafBody, TafBody]
  cases h with
  | nil h => exact .nil h
  | cnl h => exact .cnl h
  | metar hs hb => exact .metar hs (fun x hx => mb x (hb x hx))
  | metarRemarks hs hb hr => exact .metarRemarks hs (fun x hx => mb x (hb x hx))
  | taf hs hb => exact .taf hs (fun x hx => tb x (hb x hx))
  | tafRemarks hs hb hr =>
    exact .tafRemarks hs (fun x hx => tb x (hb x hx)) (fun x hx => by simp [hr x hx, InTafRemarks])

end Parser

end Metaf

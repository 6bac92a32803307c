import Verif.Proofs.ParserStatus

/-!
Invariants of the parser about the number of groups, and about the form of the raw strings.
-/

set_option linter.unusedSectionVars false

namespace Metaf

variable [FloatSem]

namespace Parser

open Spec (words unwords)

/-- The states before the body of the report. -/
def Early (s : State) : Prop :=
  s = .REPORT_TYPE_OR_LOCATION ∨ s = .CORRECTION ∨ s = .LOCATION ∨ s = .REPORT_TIME ∨ s = .TIME_SPAN

theorem early_transition {st : Status} {sg : SyntaxGroup} (h : Early (st.transition sg).state) :
    Early st.state := by
  obtain ⟨s, t, e⟩ := st
  cases s <;> cases sg <;> cases t <;>
    simp_all [Early, Status.transition, Status.transitionFromReportTypeOrLocation,
      Status.transitionFromCorrecton, Status.transitionFromReportTime,
      Status.transitionFromTimeSpan, Status.transitionFromReportBodyBeginMetar,
      Status.transitionFromReportBodyMetar, Status.transitionFromReportBodyBeginTaf,
      Status.transitionFromReportBodyTaf, Status.setState, Status.setError, Status.setReportType]

theorem early_limit {limit count : Nat} {st : Status}
    (h : Early (limitStatus limit count st).state) : Early st.state := by
  unfold limitStatus at h
  split at h
  · simp [Early, Status.setError] at h
  · exact h

theorem transition_not_tooLarge {st : Status} {sg : SyntaxGroup} (he : st.isError = false) :
    (st.transition sg).reportError ≠ .REPORT_TOO_LARGE := by
  obtain ⟨s, t, e⟩ := st
  have he' : e = .NONE := by simpa [Status.isError] using he
  subst he'
  cases s <;> cases sg <;> cases t <;>
    simp [Status.transition, Status.transitionFromReportTypeOrLocation,
      Status.transitionFromCorrecton, Status.transitionFromReportTime,
      Status.transitionFromTimeSpan, Status.transitionFromReportBodyBeginMetar,
      Status.transitionFromReportBodyMetar, Status.transitionFromReportBodyBeginTaf,
      Status.transitionFromReportBodyTaf, Status.setState, Status.setError, Status.setReportType]

theorem limit_tooLarge {limit count : Nat} {st : Status} (h : st.reportError ≠ .REPORT_TOO_LARGE) :
    (limitStatus limit count st).reportError = .REPORT_TOO_LARGE ↔ limit ≤ count := by
  unfold limitStatus
  split
  · simp [Status.setError]; omega
  · simp [h]; omega

theorem Run.count {limit : Nat} {done : List Str} {v : Vars} (h : Run limit done v) :
    done.length ≤ v.groupCount ∧ v.groupCount ≤ done.length + 1 ∧
    (Early v.status.state → v.groupCount = done.length) ∧
    (v.status.reportError = .REPORT_TOO_LARGE ↔ done ≠ [] ∧ limit ≤ v.groupCount) := by
  induction h with
  | start => simp
  | @step done _ v _ _ he _ _ hst ih =>
    obtain ⟨h1, h2, h3, h4⟩ := ih
    have hn : v.status.reportError = .NONE := by simpa [Status.isError] using he
    cases hst with
    | absorbed =>
      refine ⟨by simp; omega, by simp; omega, fun h => ?_, ?_⟩
      · have := h3 (early_limit h); simp; omega
      · rw [limit_tooLarge (by simp [hn])]; simp
    | @parsed gs g =>
      refine ⟨by simp; omega, by simp; omega, fun h => ?_, ?_⟩
      · have := h3 (early_transition (early_limit h)); simp; omega
      · rw [limit_tooLarge (transition_not_tooLarge he)]; simp
    | reparsed _ hs =>
      have := h3 (by simp [Early, hs])
      refine ⟨by simp; omega, by simp; omega, fun h => ?_, ?_⟩
      · have := early_transition (early_limit h)
        simp [Early, repeatStatus] at this
      · rw [limit_tooLarge (transition_not_tooLarge (by simp [repeatStatus, Status.isError, hn]))]
        simp

/-- Before each step the limit was not reached. -/
theorem Run.length_le {limit : Nat} {done : List Str} {v : Vars} (h : Run limit done v) :
    done.length ≤ max 1 limit := by
  cases h with
  | start => simp
  | @step done tok v _ hr he =>
    have hc := hr.count
    have hn : v.status.reportError = .NONE := by simpa [Status.isError] using he
    rw [hn] at hc
    rcases done with _ | ⟨d, ds⟩
    · simp
    · have : ¬ limit ≤ v.groupCount := fun hl => by simpa using hc.2.2.2.mpr ⟨by simp, hl⟩
      simp at hc ⊢
      omega

/-! ### Form of the raw strings -/

theorem unwords_append {a b : List Str} (ha : a ≠ []) (hb : b ≠ []) :
    unwords (a ++ b) = unwords a ++ ' ' :: unwords b := by
  induction a with
  | nil => exact absurd rfl ha
  | cons w ws ih =>
    cases ws with
    | nil => cases b <;> simp_all [unwords]
    | cons w' ws => simp only [List.cons_append, unwords] at ih ⊢; simp [ih]

/-- The raw string consists of words separated by single spaces. -/
def Joined (gi : GroupInfo) : Prop := unwords (words gi.rawString) = gi.rawString

theorem words_ne_nil {s : Str} (h : s ≠ []) (hj : unwords (words s) = s) : words s ≠ [] := by
  intro hn; rw [hn] at hj; exact h hj.symm

theorem joined_append {a b : Str} (ha : unwords (words a) = a) (hb : unwords (words b) = b)
    (hna : a ≠ []) (hnb : b ≠ []) : unwords (words (a ++ ' ' :: b)) = a ++ ' ' :: b := by
  rw [words_append, unwords_append (words_ne_nil hna ha) (words_ne_nil hnb hb), ha, hb]

theorem Tok.joined {t : Str} (h : Tok t) : unwords (Spec.words t) = t := by rw [h.words]; rfl

theorem addGroup_joined {gs : List GroupInfo} {g : Group} {p : ReportPart} {s : Str}
    (h : ∀ gi ∈ gs, Joined gi) (hh : HeadText gs) (hs : unwords (words s) = s) (hn : s ≠ []) :
    ∀ gi ∈ addGroupToResult gs g p s, Joined gi := by
  cases gs with
  | nil => intro x hx; simp [addGroupToResult] at hx; subst hx; exact hs
  | cons last rest =>
    simp only [addGroupToResult]
    split
    · intro x hx
      rcases List.mem_cons.mp hx with rfl | hx
      · have := joined_append (h last (by simp)) hs (hh last (by simp)) hn
        simpa [Joined] using this
      · exact h x (by simp [hx])
    · intro x hx
      rcases List.mem_cons.mp hx with rfl | hx
      · exact hs
      · exact h x hx

theorem Appended.joined {tok : Str} {p : ReportPart} {md : ReportMetadata}
    {gs gs' : List GroupInfo} {b : Bool} (h : Appended tok p md gs gs' b)
    (hj : ∀ gi ∈ gs, Joined gi) (hc : gs.IsChain Neighbours) (hh : HeadText gs)
    (ht : b = true → Tok tok) :
    ∀ gi ∈ gs', Joined gi := by
  have key : ∀ {last x : GroupInfo} {rest}, (∀ gi ∈ last :: rest, Joined gi) → Joined x →
      ∀ gi ∈ x :: rest, Joined gi := by
    intro last x rest h hx y hy
    rcases List.mem_cons.mp hy with rfl | hy
    · exact hx
    · exact h y (by simp [hy])
  cases h with
  | empty => exact hj
  | fallback => exact hj
  | @appended last =>
    refine key hj ?_
    have := joined_append (hj last (by simp)) (ht rfl).joined (hh last (by simp)) (ht rfl).1
    simpa [Joined] using this
  | @rejected last => exact key hj (hj last (by simp))
  | @unknown last rest _ _ hf =>
    refine addGroup_joined (fun gi h => hj gi (by simp [h])) ?_ (hj last (by simp))
      (hh last (by simp))
    intro y hy hr
    have := ((List.isChain_cons.mp hc).1 y hy).2 hr
    simp [hf] at this
  | @reAppended last =>
    refine key hj ?_
    have := joined_append (hj last (by simp)) (ht rfl).joined (hh last (by simp)) (ht rfl).1
    simpa [Joined] using this
  | @reRejected last => exact key hj (hj last (by simp))
  | @reInvalidated last =>
    intro y hy
    rcases List.mem_cons.mp hy with rfl | hy
    · exact hj last (by simp)
    · refine key hj ?_ y hy
      simp [Joined, words, Spec.wordsAux, unwords]

theorem Run.joined {limit : Nat} {done : List Str} {v : Vars} (h : Run limit done v) :
    ∀ gi ∈ v.groups, Joined gi := by
  induction h with
  | start => simp
  | step hr _ ht _ hst ih =>
    cases hst with
    | absorbed ha => exact ha.joined ih hr.neighbours hr.headText (fun _ => ht)
    | parsed ha =>
      exact addGroup_joined (ha.joined ih hr.neighbours hr.headText (fun _ => ht))
        (ha.headText hr.headText) ht.joined ht.1
    | reparsed ha =>
      exact addGroup_joined (ha.joined ih hr.neighbours hr.headText (fun _ => ht))
        (ha.headText hr.headText) ht.joined ht.1

end Parser

end Metaf

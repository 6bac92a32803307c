import Verif.Proofs.ParserSyntax
import Verif.Spec.Parts

/-!
The parts of the entries along a run of the parser.
-/

set_option linter.unusedSectionVars false

namespace Metaf

variable [FloatSem]

open Spec Grammar

namespace Parser

/-- The parts of the entries (latest first) follow each other in order. -/
inductive PartsOk : List (Element × ReportPart) → Prop
  | nil : PartsOk []
  | first {e} : PartsOk [(e, .HEADER)]
  | next {e p e' p' r} : PartsOk ((e, p) :: r) → NextPart p e p' →
      PartsOk ((e', p') :: (e, p) :: r)

theorem nextPart_other (p : ReportPart) : NextPart p .other p := by cases p <;> simp [NextPart]

theorem nextPart_other_iff {p q : ReportPart} (h : NextPart p .other q) : q = p := by
  cases p <;> simpa [NextPart] using h

theorem PartsOk.tail {a : Element × ReportPart} {r} (h : PartsOk (a :: r)) : PartsOk r := by
  cases h with
  | first => exact .nil
  | next h _ => exact h

/-- The relation of the status to the last entry. -/
def Follows (st : Status) (k : List (Element × ReportPart)) : Prop :=
  st.reportError = .NONE →
    st.state ≠ .REPORT_BODY_BEGIN_METAR_REPEAT_PARSE ∧
    match k with
    | [] => st.state = .REPORT_TYPE_OR_LOCATION
    | (e, p) :: _ => NextPart p e st.getReportPart ∧
        (st.state = .TIME_SPAN → e = .time ∧ p = .HEADER)

theorem PartsOk.stutter {k k' : List (Element × ReportPart)} (h : PartsOk k) (hs : Stutter k k') :
    PartsOk k' := by
  cases hs with
  | same => exact h
  | @double p r => exact .next h (nextPart_other p)
  | @merge p q r => exact h.tail

theorem Follows.stutter {st : Status} {k k' : List (Element × ReportPart)} (h : Follows st k)
    (ho : PartsOk k) (hs : Stutter k k') : Follows st k' := by
  cases hs with
  | same => exact h
  | double => exact h
  | @merge p q r =>
    have : p = q := by
      cases ho with
      | next _ hn => exact nextPart_other_iff hn
    subst this
    exact h

theorem transition_follows {st : Status} {e : Element} (h0 : st.reportError = .NONE)
    (hs : st.state ≠ .ERROR)
    (h : (st.transition (syn e)).reportError = .NONE)
    (hr : (st.transition (syn e)).state ≠ .REPORT_BODY_BEGIN_METAR_REPEAT_PARSE) :
    NextPart st.getReportPart e (st.transition (syn e)).getReportPart ∧
      ((st.transition (syn e)).state = .TIME_SPAN → e = .time ∧ st.getReportPart = .HEADER) := by
  obtain ⟨s, t, er⟩ := st
  simp only at h0 hs
  subst h0
  revert h hr hs
  cases s <;> cases t <;> cases e <;>
    simp [Status.transition, syn, Status.transitionFromReportTypeOrLocation,
      Status.transitionFromCorrecton, Status.transitionFromReportTime,
      Status.transitionFromTimeSpan, Status.transitionFromReportBodyBeginMetar,
      Status.transitionFromReportBodyMetar, Status.transitionFromReportBodyBeginTaf,
      Status.transitionFromReportBodyTaf, Status.setError, Status.setState, Status.setReportType,
      Status.getReportPart, NextPart]

theorem partsOk_addGroup {gs : List GroupInfo} {g : Group} {p : ReportPart} {s : Str}
    (h : PartsOk ((elementOf g, p) :: kinds gs)) :
    PartsOk (kinds (addGroupToResult gs g p s)) := by
  cases gs with
  | nil => exact h
  | cons last rest =>
    simp only [addGroupToResult]
    split
    · exact h.tail
    · exact h

theorem kinds_addGroup {gs : List GroupInfo} {g : Group} {p : ReportPart} {s : Str}
    (h : PartsOk ((elementOf g, p) :: kinds gs)) :
    ∃ r, kinds (addGroupToResult gs g p s) = (elementOf g, p) :: r := by
  cases gs with
  | nil => exact ⟨_, rfl⟩
  | cons last rest =>
    simp only [addGroupToResult]
    split
    · rename_i hb
      simp only [Bool.and_eq_true] at hb
      refine ⟨kinds rest, ?_⟩
      simp only [kinds, List.map_cons, fallback_other hb.1, fallback_other hb.2] at h ⊢
      cases h with
      | next _ hn => rw [nextPart_other_iff hn]
    · exact ⟨_, rfl⟩

theorem limitStatus_error {limit count : Nat} {st : Status}
    (h : (limitStatus limit count st).reportError = .NONE) :
    limitStatus limit count st = st ∧ count < limit :=
  limitStatus_of_ne (by rw [h]; simp)

theorem Run.parts {limit : Nat} {done : List Str} {v : Vars} (h : Run limit done v) :
    PartsOk (kinds v.groups) ∧ Follows v.status (kinds v.groups) := by
  induction h with
  | start => exact ⟨.nil, fun _ => ⟨by simp, rfl⟩⟩
  | @step _ tok v v' hr he _ _ hst ih =>
    have hnone : v.status.reportError = .NONE := by simpa [Status.isError] using he
    have hstate : v.status.state ≠ .ERROR := by
      intro hs
      have := hr.statusOk.1.mp hs
      exact this hnone
    have put : ∀ {gs : List GroupInfo} {g : Group} {b : Bool}
        (ha : Appended tok v.status.getReportPart v.md v.groups gs b)
        (p : ReportPart) (hp : p = v.status.getReportPart ∨ (p = .METAR ∧ v.status.state = .TIME_SPAN)),
        PartsOk ((elementOf g, p) :: kinds gs) := by
      intro gs g b ha p hp
      have hs := (ha.syntax hr.inv hr.entriesOk hr.headText).2
      have h1 := ih.1.stutter hs
      have h2 := (ih.2.stutter ih.1 hs) hnone
      revert h1 h2
      cases kinds gs with
      | nil =>
        intro h1 h2
        have h2 : v.status.state = .REPORT_TYPE_OR_LOCATION := h2.2
        rcases hp with rfl | ⟨rfl, hp⟩
        · rw [Status.getReportPart, h2]
          exact .first
        · rw [h2] at hp; simp at hp
      | cons k r =>
        obtain ⟨e, q⟩ := k
        intro h1 h2
        have h2 := h2.2
        refine .next h1 ?_
        rcases hp with rfl | ⟨rfl, hp⟩
        · exact h2.1
        · obtain ⟨rfl, rfl⟩ := h2.2 hp
          simp [NextPart]
    cases hst with
    | @absorbed gs ha =>
      have hs := (ha.syntax hr.inv hr.entriesOk hr.headText).2
      refine ⟨ih.1.stutter hs, fun hn => ?_⟩
      obtain ⟨hl1, hl2⟩ := limitStatus_error hn
      rw [hl1] at hn ⊢
      exact (ih.2.stutter ih.1 hs) hn
    | @parsed gs g ha hp hginv hrep =>
      have hput := put (g := g) ha v.status.getReportPart (Or.inl rfl)
      refine ⟨partsOk_addGroup hput, fun hn => ?_⟩
      obtain ⟨hl1, hl2⟩ := limitStatus_error hn
      rw [hl1] at hn ⊢
      have hrr : (v.status.transition (getSyntaxGroup g)).state ≠
          .REPORT_BODY_BEGIN_METAR_REPEAT_PARSE := fun hrr => by have := hrep hrr; omega
      refine ⟨hrr, ?_⟩
      obtain ⟨r, hk⟩ := kinds_addGroup (s := tok) hput
      rw [hk]
      simp only [← syn_elementOf] at hn hrr ⊢
      exact transition_follows hnone hstate hn hrr
    | @reparsed gs g0 g ha hstate' htype hp0 hn1 hn2 hlt hp hginv =>
      have hput := put (g := g) ha .METAR (Or.inr ⟨rfl, hstate'⟩)
      refine ⟨partsOk_addGroup hput, fun hn => ?_⟩
      obtain ⟨hl1, hl2⟩ := limitStatus_error hn
      rw [hl1] at hn ⊢
      obtain ⟨r, hk⟩ := kinds_addGroup (s := tok) hput
      rw [hk]
      simp only [← syn_elementOf] at hn ⊢
      have hrr : ((repeatStatus v.status.reportError).transition (syn (elementOf g))).state ≠
          .REPORT_BODY_BEGIN_METAR_REPEAT_PARSE := by
        cases elementOf g <;> simp [syn, repeatStatus, Status.transition,
          Status.transitionFromReportBodyBeginMetar, Status.setState, Status.setError]
      exact ⟨hrr, transition_follows (st := repeatStatus v.status.reportError) hnone
        (by simp [repeatStatus]) hn hrr⟩

theorem partsOk_single {e : Element} {p : ReportPart} (h : PartsOk [(e, p)]) : p = .HEADER := by
  cases h; rfl

theorem partsOk_two {e e' : Element} {p p' : ReportPart} {r}
    (h : PartsOk ((e', p') :: (e, p) :: r)) : NextPart p e p' := by
  cases h; assumption

theorem chain_of_parts {k : List GroupInfo} : ∀ {x : GroupInfo} {r : List GroupInfo},
    PartsOk (kinds (x :: k)) → PartsInOrder.Chain x r → PartsInOrder (k.reverse ++ x :: r) := by
  induction k with
  | nil =>
    intro x r h hc
    have hx : x.reportPart = .HEADER := partsOk_single h
    cases r with
    | nil => exact hx
    | cons y r => exact ⟨hx, hc⟩
  | cons y k ih =>
    intro x r h hc
    simp only [List.reverse_cons, List.append_assoc, List.singleton_append]
    refine ih (x := y) (r := x :: r) ?_ ⟨?_, hc⟩
    · exact h.tail
    · exact partsOk_two h

/-- The parts of the result are in order. -/
theorem partsInOrder_of {gs : List GroupInfo} (h : PartsOk (kinds gs)) :
    PartsInOrder gs.reverse := by
  cases gs with
  | nil => trivial
  | cons x k =>
    have := chain_of_parts (r := []) h trivial
    simpa using this

end Parser

end Metaf

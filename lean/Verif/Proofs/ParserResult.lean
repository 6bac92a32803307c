import Verif.Proofs.ParserType
import Verif.Proofs.ParserMeta

/-!
Facts about the result of parsing.
-/

set_option linter.unusedSectionVars false

namespace Metaf

variable [FloatSem]

open Spec Grammar

namespace Parser

/-- What is known about a result. -/
structure ResultFacts (r : ParseResult) (v : Vars) (gs : List GroupInfo) : Prop where
  groups : r.groups = gs.reverse
  metadata : r.reportMetadata = finalMd v
  status : StatusOk v.status
  entries : EntriesOk gs
  inv : GroupsInv gs
  parts : PartsOk (kinds gs)
  verdict : v.status.reportError ≠ .REPORT_TOO_LARGE → Grammar.verdict (elements r.groups) = v.status
  type : v.status.reportType = (Grammar.verdict (elements r.groups)).reportType
  placed : v.status.reportError = .NONE → WellPlaced (elements r.groups)
  part : v.status.reportError = .NONE → ∀ pre x post, r.groups = pre ++ x :: post →
    x.reportPart = partAt (Grammar.verdict (elements pre)) (elementOf x.group)
  md : v.md = (skel gs).foldr updateMetadata {}
  misc : ∀ x ∈ gs, MiscText x

theorem elements_reverse (gs : List GroupInfo) : elements gs.reverse = els gs := by
  simp [elements, els]

theorem posOk_at {gs : List GroupInfo} (h : PosOk (kinds gs)) {pre post : List GroupInfo}
    {x : GroupInfo} (he : gs.reverse = pre ++ x :: post) :
    x.reportPart = partAt (Grammar.verdict (elements pre)) (elementOf x.group) := by
  have he' : gs = post.reverse ++ x :: pre.reverse := by
    have := congrArg List.reverse he
    simpa using this
  subst he'
  clear he
  induction post using List.reverseRecOn with
  | nil =>
    have := posOk_head (e := elementOf x.group) (p := x.reportPart) (k := kinds pre.reverse) h
    rw [← els_eq] at this
    rw [this, ← elements_reverse, List.reverse_reverse]
  | append_singleton post y ih =>
    apply ih
    rw [List.reverse_append] at h
    exact h.tail

theorem result_facts {report : Str} {limit : Nat} {r : ParseResult}
    (h : parse report limit = .ok r) : ∃ v gs, ResultFacts r v gs := by
  obtain ⟨v, done, gs, hr, -, -, ha, hinv, hp⟩ := parse_spec report limit
  rw [h] at hp
  injection hp with hp
  subst hp
  have hs := ha.syntax hr.inv hr.entriesOk hr.headText
  have hk := ha.skel hr.inv hr.entriesOk hr.meta.1 hr.headText
  have hve : v.status.reportError ≠ .REPORT_TOO_LARGE → Grammar.verdict (els gs) = v.status := by
    intro hne
    have := verdict_stutter hs.2
    rw [← els_eq, ← els_eq, hr.verdict hne] at this
    exact this
  refine ⟨v, gs, rfl, rfl, hr.statusOk, hs.1, hinv, hr.parts.1.stutter hs.2, ?_, ?_, ?_, ?_, ?_, ?_⟩
  · simp only [elements_reverse]; exact hve
  · have := verdict_stutter hs.2
    rw [← els_eq, ← els_eq] at this
    simp only [elements_reverse, this]
    exact hr.type
  · intro hn
    simp only [elements_reverse]
    refine wellPlaced_of ((hr.places hn).stutter hs.2 ?_) hs.1
    rw [← els_eq, hr.verdict (by rw [hn]; simp)]
    exact hn
  · intro hn pre x post he
    have hp : PosOk (kinds gs) := by
      refine (hr.places hn).stutter hs.2 ?_
      rw [← els_eq, hr.verdict (by rw [hn]; simp)]
      exact hn
    exact posOk_at hp he
  · rw [hk.2]; exact hr.meta.2
  · intro x hx
    rcases ha.sigs hr.inv hr.entriesOk hr.meta.1 hr.headText x hx with h | h
    · exact miscText_of_sig h
    · exact hr.miscText x h

end Parser

end Metaf

import Verif.Proofs.Header

/-!
The parser in the remarks of a report.
-/

set_option linter.unusedSectionVars false

namespace Metaf

open Spec

variable [FloatSem]

namespace Parser

/-- The parser is in the remarks of a report and has met no error. -/
def InRemarks (ty : ReportType) (st : Status) : Prop :=
  st.reportError = .NONE ∧ st.reportType = ty ∧
    (ty = .METAR ∧ st.state = .REMARK_METAR ∨ ty = .TAF ∧ st.state = .REMARK_TAF)

theorem InRemarks.part {ty : ReportType} {st : Status} (h : InRemarks ty st) : st.getReportPart = .RMK := by
  obtain ⟨-, -, ⟨-, h⟩ | ⟨-, h⟩⟩ := h <;> simp [Status.getReportPart, h]

theorem InRemarks.noError {ty : ReportType} {st : Status} (h : InRemarks ty st) : st.isError = false := by
  simp [Status.isError, h.1]

theorem InRemarks.transition {ty : ReportType} {st : Status} (h : InRemarks ty st) {sg : SyntaxGroup}
    (hs : ty = .TAF → sg ≠ .MAINTENANCE_INDICATOR) : st.transition sg = st := by
  obtain ⟨-, -, ⟨-, h⟩ | ⟨ht, h⟩⟩ := h
  · simp [Status.transition, h]
  · simp [Status.transition, h, hs ht]

/-- The groups after a certain one are remarks. -/
def RemarksAfter (K : GroupInfo) (G gs : List GroupInfo) : Prop :=
  ∃ l, gs = l ++ K :: G ∧ ∀ x ∈ l, x.reportPart = .RMK

theorem RemarksAfter.add {K : GroupInfo} (hK : Closed K.group) {G gs : List GroupInfo}
    (h : RemarksAfter K G gs) (g : Group) (s : Str) : RemarksAfter K G (addGroupToResult gs g .RMK s) := by
  obtain ⟨l, rfl, hl⟩ := h
  cases l with
  | nil =>
    refine ⟨[⟨g, .RMK, s⟩], ?_, by simp⟩
    simp [addGroupToResult, hK.1]
  | cons x l =>
    simp only [List.cons_append, addGroupToResult]
    split
    · exact ⟨_ :: l, rfl, by simpa using hl⟩
    · exact ⟨_ :: x :: l, rfl, by simpa using hl⟩

theorem RemarksAfter.appended {K : GroupInfo} (hK : Closed K.group) {G gs gs' : List GroupInfo}
    (h : RemarksAfter K G gs) {s : Str} {md : ReportMetadata} {b : Bool} (ha : Appended s .RMK md gs gs' b) :
    RemarksAfter K G gs' := by
  obtain ⟨l, rfl, hl⟩ := h
  cases l with
  | nil =>
    have hk := hK.2 s .RMK md
    cases ha with
    | fallback hf => exact absurd hf (by simp [hK.1])
    | appended _ h => rw [hk] at h; cases h
    | rejected _ h => rw [hk] at h; cases h; exact ⟨[], rfl, by simp⟩
    | unknown _ h => rw [hk] at h; cases h
    | reAppended _ h => rw [hk] at h; cases h
    | reRejected _ h => rw [hk] at h; cases h
    | reInvalidated _ h => rw [hk] at h; cases h
  | cons x l =>
    have hx : x.reportPart = .RMK := hl x (by simp)
    have hr : RemarksAfter K G (l ++ K :: G) := ⟨l, rfl, fun y hy => hl y (by simp [hy])⟩
    have hc : ∀ y : GroupInfo, y.reportPart = .RMK → RemarksAfter K G (y :: (l ++ K :: G)) := by
      intro y hy
      refine ⟨y :: l, rfl, ?_⟩
      intro z hz
      rcases List.mem_cons.mp hz with rfl | hz
      · exact hy
      · exact hl z (by simp [hz])
    cases ha with
    | fallback => exact hc x hx
    | appended => exact hc _ hx
    | rejected => exact hc _ hx
    | unknown => rw [hx]; exact hr.add hK _ _
    | reAppended => exact hc _ hx
    | reRejected => exact hc _ hx
    | reInvalidated =>
      rw [hx]
      refine ⟨_ :: _ :: l, rfl, ?_⟩
      intro z hz
      rcases List.mem_cons.mp hz with rfl | hz
      · rfl
      rcases List.mem_cons.mp hz with rfl | hz
      · rfl
      · exact hl z (by simp [hz])

theorem remark_syntax {w : Str} {md : ReportMetadata} {g : Group} (hw : w ≠ c!"$")
    (h : GroupParser.parse w .RMK md = .ok g) : getSyntaxGroup g ≠ .MAINTENANCE_INDICATOR := by
  rcases (GroupParser.parse_first h).2 with h2 | rfl
  · cases g with
    | keyword k =>
      obtain ⟨k', hk, e⟩ := map_some h2
      cases e
      obtain ⟨t⟩ := k
      obtain ⟨ps, hm, hps⟩ := keyword_parse_iff.mp hk
      simp only [keywords, List.mem_cons, Prod.mk.injEq, List.not_mem_nil, or_false] at hm
      rcases hm with h | h | h | h | h | h | h | h | h | h | h | h | h | h | h | h <;>
        obtain ⟨rfl, rfl, rfl⟩ := h <;> first
          | (exact absurd rfl hw)
          | nofun
    | trend t =>
      simp only [getSyntaxGroup]
      split <;> nofun
    | _ => nofun
  · nofun

/-- The parser on the words of the remarks. -/
theorem fold_remarks {limit : Nat} {ty : ReportType} {K : GroupInfo} (hK : Closed K.group) {G : List GroupInfo} :
    ∀ (ts : List Str) {v : Vars}, GroupsInv v.groups → InRemarks ty v.status → RemarksAfter K G v.groups →
    v.groupCount + ts.length < limit → (ty = .TAF → c!"$" ∉ ts) →
    ∃ v', foldTokens limit ts v = .ok v' ∧ InRemarks ty v'.status ∧ RemarksAfter K G v'.groups := by
  intro ts
  induction ts with
  | nil => intro v _ hb hr _ _; exact ⟨v, rfl, hb, hr⟩
  | cons w ts ih =>
    intro v hi hb hr hl hd
    rw [List.length_cons] at hl
    obtain ⟨v1, h1, h2, h3⟩ := stepTok_spec (limit := limit) (tok := w) hi hb.noError
    have hlt : ¬ (v.groupCount + 1 ≥ limit) := by omega
    have key : InRemarks ty v1.status ∧ RemarksAfter K G v1.groups ∧ v1.groupCount = v.groupCount + 1 := by
      cases h2 with
      | absorbed ha =>
        rw [hb.part] at ha
        refine ⟨?_, hr.appended hK ha, rfl⟩
        simpa only [limitStatus, if_neg hlt] using hb
      | parsed ha hg =>
        rw [hb.part] at ha hg
        refine ⟨?_, ?_, rfl⟩
        · simp only [limitStatus, if_neg hlt]
          rw [hb.transition]
          · exact hb
          · intro ht
            refine remark_syntax (fun e => ?_) hg
            exact hd ht (by simp [e])
        · show RemarksAfter K G (addGroupToResult _ _ v.status.getReportPart w)
          rw [hb.part]
          exact (hr.appended hK ha).add hK _ _
      | reparsed _ hst =>
        obtain ⟨-, -, ⟨-, h⟩ | ⟨-, h⟩⟩ := hb <;> rw [hst] at h <;> cases h
    obtain ⟨k1, k2, k3⟩ := key
    obtain ⟨v2, e1, e2, e3⟩ := ih h3 k1 k2 (by omega) (fun ht hm => hd ht (by simp [hm]))
    refine ⟨v2, ?_, e2, e3⟩
    simp only [foldTokens, hb.noError, Bool.false_eq_true, if_false, h1, e1]

/-- The word which begins the remarks. -/
theorem step_rmk {limit : Nat} {p : ReportPart} {v : Vars} {gs : List GroupInfo} (hb : InBody p v.status)
    (hl : v.groupCount + 1 < limit)
    (ha : appendToLastResultGroup v.groups c!"RMK" p v.md = .ok (gs, false)) :
    ∃ v', stepTok limit c!"RMK" v = .ok v' ∧ InRemarks v.status.reportType v'.status ∧
      v'.groups = ⟨.keyword ⟨.RMK⟩, p, c!"RMK"⟩ :: gs ∧ v'.groupCount = v.groupCount + 1 := by
  have hg : GroupParser.parse c!"RMK" p v.md = .ok (.keyword ⟨.RMK⟩) := by
    refine Props.C66_order_free _ _ _ 0 _ ?_ (by simp)
    rcases hb.isBody with rfl | rfl <;> rfl
  have hlt : ¬ (v.groupCount + 1 ≥ limit) := by omega
  have ht : InRemarks v.status.reportType (v.status.transition .RMK) := by
    obtain ⟨⟨s, t, e⟩, md, gr, c⟩ := v
    obtain ⟨he, ⟨rfl, ht, h | h⟩ | ⟨rfl, ht, h | h⟩⟩ := hb <;> dsimp only at he ht h <;> subst he ht h
    · exact ⟨rfl, rfl, Or.inl ⟨rfl, rfl⟩⟩
    · exact ⟨rfl, rfl, Or.inl ⟨rfl, rfl⟩⟩
    · exact ⟨rfl, rfl, Or.inr ⟨rfl, rfl⟩⟩
    · exact ⟨rfl, rfl, Or.inr ⟨rfl, rfl⟩⟩
  have hnr : (v.status.transition .RMK).isReparseRequired = false := by
    obtain ⟨-, -, ⟨-, h⟩ | ⟨-, h⟩⟩ := ht <;> simp [Status.isReparseRequired, h]
  refine ⟨{ status := v.status.transition .RMK, md := updateMetadata (.keyword ⟨.RMK⟩) v.md,
            groups := ⟨.keyword ⟨.RMK⟩, p, c!"RMK"⟩ :: gs, groupCount := v.groupCount + 1 }, ?_, ht, rfl, rfl⟩
  have hsg : getSyntaxGroup (.keyword ⟨.RMK⟩) = .RMK := rfl
  simp only [stepTok, step, hb.part, ha, parseGroup, hg, countGroup, if_neg hlt, hsg, hnr, Bool.false_and,
    Bool.false_eq_true, if_false, addGroup_not_fallback (closed_keyword _).1]

end Parser

end Metaf

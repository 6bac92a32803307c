import Verif.Proofs.ParserCount

/-!
Later groups of the report leave the earlier groups of the result as they are.
-/

set_option linter.unusedSectionVars false

namespace Metaf

variable [FloatSem]

namespace Parser

/-- `gs` (latest first) still holds the groups `b :: rest`, with later groups in front of them;
if `b` is unknown, further text may have been merged into it. -/
def Kept (b : GroupInfo) (rest gs : List GroupInfo) : Prop :=
  (∃ l, l ≠ [] ∧ gs = l ++ b :: rest) ∨
  (b.group.isFallback = true ∧
    ∃ l t, gs = l ++ { b with rawString := b.rawString ++ ' ' :: t } :: rest)

theorem Kept.addGroup {b : GroupInfo} {rest gs : List GroupInfo} (h : Kept b rest gs) (g : Group)
    (p : ReportPart) (s : Str) : Kept b rest (addGroupToResult gs g p s) := by
  rcases h with ⟨l, hl, rfl⟩ | ⟨hf, l, t, rfl⟩
  · cases l with
    | nil => exact absurd rfl hl
    | cons x l =>
      left
      simp only [List.cons_append, addGroupToResult]
      split
      · exact ⟨_ :: l, by simp, rfl⟩
      · exact ⟨_ :: x :: l, by simp, rfl⟩
  · right
    refine ⟨hf, ?_⟩
    cases l with
    | nil =>
      simp only [List.nil_append, addGroupToResult]
      split
      · refine ⟨[], t ++ ' ' :: s, ?_⟩
        simp
      · exact ⟨[_], t, rfl⟩
    | cons x l =>
      simp only [List.cons_append, addGroupToResult]
      split
      · exact ⟨_ :: l, t, rfl⟩
      · exact ⟨_ :: x :: l, t, rfl⟩

/-- A group that turns out to be unknown is added to the groups before it. -/
theorem Kept.addGroup_tail {b : GroupInfo} {rest : List GroupInfo} (g : Group)
    (p : ReportPart) (s : Str) :
    Kept b rest (addGroupToResult (b :: rest) g p s) := by
  simp only [addGroupToResult]
  split
  · rename_i h
    right
    refine ⟨(by simp at h; exact h.2), [], s, by simp⟩
  · exact Or.inl ⟨[_], by simp, rfl⟩

theorem Kept.appended {tok : Str} {p : ReportPart} {md : ReportMetadata} {b : GroupInfo}
    {rest gs gs' : List GroupInfo} {c : Bool} (h : Kept b rest gs)
    (ha : Appended tok p md gs gs' c) : Kept b rest gs' := by
  rcases h with ⟨l, hl, rfl⟩ | ⟨hf, l, t, rfl⟩
  · obtain ⟨x, l, rfl⟩ : ∃ x l', l = x :: l' := by cases l <;> simp_all
    simp only [List.cons_append] at ha
    cases ha with
    | fallback => exact Or.inl ⟨x :: l, by simp, rfl⟩
    | appended => exact Or.inl ⟨_ :: l, by simp, rfl⟩
    | rejected => exact Or.inl ⟨_ :: l, by simp, rfl⟩
    | @unknown _ _ g rp =>
      cases l with
      | nil => exact Kept.addGroup_tail _ _ _
      | cons y l =>
        exact Kept.addGroup (gs := y :: l ++ b :: rest) (Or.inl ⟨y :: l, by simp, rfl⟩) _ _ _
    | reAppended => exact Or.inl ⟨_ :: l, by simp, rfl⟩
    | reRejected => exact Or.inl ⟨_ :: l, by simp, rfl⟩
    | reInvalidated => exact Or.inl ⟨_ :: _ :: l, by simp, rfl⟩
  · cases l with
    | nil =>
      simp only [List.nil_append] at ha
      cases ha with
      | fallback => exact Or.inr ⟨hf, [], t, rfl⟩
      | appended h | rejected h | unknown h | reAppended h | reRejected h | reInvalidated h =>
        simp [hf] at h
    | cons x l =>
      simp only [List.cons_append] at ha
      have mk : ∀ y, Kept b rest (y :: (l ++ { b with rawString := b.rawString ++ ' ' :: t } ::
          rest)) := fun y => Or.inr ⟨hf, y :: l, t, rfl⟩
      cases ha with
      | fallback => exact mk _
      | appended => exact mk _
      | rejected => exact mk _
      | unknown =>
        exact Kept.addGroup (Or.inr ⟨hf, l, t, rfl⟩) _ _ _
      | reAppended => exact mk _
      | reRejected => exact mk _
      | reInvalidated => exact Or.inr ⟨hf, _ :: _ :: l, t, rfl⟩

theorem Kept.step {limit : Nat} {tok : Str} {b : GroupInfo} {rest : List GroupInfo} {v v' : Vars}
    (h : Kept b rest v.groups) (hs : Step limit tok v v') : Kept b rest v'.groups := by
  cases hs with
  | absorbed ha => exact h.appended ha
  | parsed ha => exact (h.appended ha).addGroup _ _ _
  | reparsed ha => exact (h.appended ha).addGroup _ _ _

theorem Kept.fold {limit : Nat} {b : GroupInfo} {rest : List GroupInfo} :
    ∀ (ts done : List Str) (v v' : Vars), Run limit done v → (∀ t ∈ ts, Tok t) →
      Kept b rest v.groups → foldTokens limit ts v = .ok v' → Kept b rest v'.groups := by
  intro ts
  induction ts with
  | nil => intro done v v' _ _ h hf; simp only [foldTokens] at hf; injection hf with hf; subst hf; exact h
  | cons t ts ih =>
    intro done v v' hr ht h hf
    cases he : v.status.isError with
    | true =>
      rw [foldTokens_error he] at hf; injection hf with hf; subst hf; exact h
    | false =>
      obtain ⟨v1, h1, hs, _⟩ := stepTok_spec (limit := limit) (tok := t) hr.inv he
      simp only [foldTokens, he, Bool.false_eq_true, if_false, h1] at hf
      exact ih _ v1 v' (.step hr he (ht t (by simp)) h1 hs) (fun x hx => ht x (by simp [hx]))
        (h.step hs) hf

end Parser

end Metaf
